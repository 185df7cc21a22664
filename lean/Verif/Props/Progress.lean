/-
C63: operations fail only for the reasons a user can see. Preparing the configurations and the cache entry cannot fail.
-/
import Verif.Types.Created
import Verif.Props.Gc
import Verif.Props.Panic
import Verif.Spec.Progress

namespace Verif
open Verif.Spec

variable {flt : Bool} {fs fs' : FS} {tr : Trace}

/-! ### storing values into a sound configuration -/

/-- The keys that are stored into configurations. -/
theorem decPluginConf_insertAll {c : PluginConf} {l : List (Bytes × Json)}
    (hk : ∀ kv ∈ l, kv.1 ∈ [b!"name", b!"cniVersion", b!"prevResult", b!"runtimeConfig", b!"cni.dev/valid-attachments",
      b!"cni.dev/attachments"])
    (hv : ∀ kv ∈ l, ∀ f, fieldMatch pluginConfFields kv.1 = some f → fieldOK f kv.2 = true) :
    ∀ {m : GoMap Json}, decPluginConf (.obj m) = some c →
    ∃ c', decPluginConf (.obj (GoMap.insertAll m l)) = some c' ∧ c'.type = c.type ∧ c'.capabilities = c.capabilities := by
  induction l generalizing c with
  | nil => intro m h; exact ⟨c, h, rfl, rfl⟩
  | cons kv l ih =>
    intro m h
    obtain ⟨c1, h1, t1, k1⟩ := decPluginConf_insert (k := kv.1) (v := kv.2) h (hv kv (by simp))
      (fieldMatch_caps _ (hk kv (by simp))).2 (fieldMatch_caps _ (hk kv (by simp))).1
    obtain ⟨c2, h2, t2, k2⟩ := ih (fun x hx => hk x (by simp [hx])) (fun x hx => hv x (by simp [hx])) h1
    exact ⟨c2, h2, t2.trans t1, k2.trans k1⟩

/-- Values that decode can be stored into a sound configuration; the outcome is again sound, and of the same type. -/
theorem Sound_inject_vals {p : PluginConfig} (hs : Sound p) {kvs : List (Bytes × Option Json)} (hg : AllGood kvs)
    (hok : ValsOK (goodVals kvs))
    (hk : ∀ kv ∈ goodVals kvs, kv.1 ∈ [b!"name", b!"cniVersion", b!"prevResult", b!"runtimeConfig", b!"cni.dev/valid-attachments",
      b!"cni.dev/attachments"])
    (hv : ∀ kv ∈ goodVals kvs, ∀ f, fieldMatch pluginConfFields kv.1 = some f → fieldOK f kv.2.clean = true) :
    ∃ conf, injectConf p kvs = .ok conf ∧ conf.network.type = p.network.type ∧
      ((∀ kv ∈ goodVals kvs, kv.2.clean.Decodes) → Sound conf) := by
  obtain ⟨ms, M, c, h1, hm, hI, hc, ht, hne⟩ := hs
  obtain ⟨m, hm⟩ := (members_inRange (Json.parse_WF h1)).2 hm
  have e : M = GoMap.ofList m := injected_unique hI (injected_insertAll hm (by simp))
  subst e
  have hcl : ∀ kv ∈ cleanVals (goodVals kvs), ∃ v, (kv.1, v) ∈ goodVals kvs ∧ kv.2 = v.clean := by
    rintro ⟨k, v⟩ hkv
    exact mem_cleanVals.1 hkv
  have hk' : ∀ kv ∈ cleanVals (goodVals kvs), kv.1 ∈ [b!"name", b!"cniVersion", b!"prevResult", b!"runtimeConfig",
      b!"cni.dev/valid-attachments", b!"cni.dev/attachments"] := by
    intro kv hkv
    obtain ⟨v, hv1, -⟩ := hcl kv hkv
    exact hk (kv.1, v) hv1
  obtain ⟨c', hc', ht', -⟩ := decPluginConf_insertAll hk' (by
    intro kv hkv f hf
    obtain ⟨v, hv1, e⟩ := hcl kv hkv
    rw [e]; exact hv _ hv1 f hf) hc
  have hp := parse_insertAll (ofList_WF (Json.parse_WF h1) hm) hok
  have hconf := (injectConf_obj h1 hm hg).trans (pluginConfFromBytes_intro hp hc' (by rw [ht']; exact hne))
  refine ⟨_, hconf, ht'.trans ht, ?_⟩
  intro hd
  have hsort : GoMap.Sorted (GoMap.insertAll (GoMap.ofList m) (cleanVals (goodVals kvs))) :=
    GoMap.sorted_insertAll (GoMap.sorted_ofList _) _
  obtain ⟨m2, hm2⟩ := toAnyMembers_decodes (l := GoMap.insertAll (GoMap.ofList m) (cleanVals (goodVals kvs))) (by
    rintro ⟨k, v⟩ hkv
    rcases insertAll_keys hkv with h | h
    · exact ⟨v, ofList_normal_mem hm h⟩
    · obtain ⟨w, hw, e⟩ := hcl _ h
      rw [show v = w.clean from e]; exact hd _ hw)
  have hs2 : GoMap.ofList m2 = m2 := GoMap.ofList_of_sorted (sorted_of_keys (toAnyMembers_keys hm2) hsort)
  obtain ⟨c2, hc2⟩ := Option.isSome_iff_exists.1 (decPluginConf_normal hm2 (by rw [hc']; rfl))
  have et : c2.type = c'.type := by
    have e1 := decPluginConf_type hc2
    rw [hs2, getField_toAnyMembers hm2, decPluginConf_type hc'] at e1
    · exact (Option.some.inj e1).symm
    · intro k v hkv hf
      rcases insertAll_keys hkv with h | h
      · exact ofList_normal_mem hm h
      · exact absurd hf (fieldMatch_caps _ (hk' _ h)).2
  exact sound_intro hp hm2 hc2 et (by rw [et, ht']; exact hne)

/-! ### preparing a configuration -/

theorem ResultWith.anyMap {N : IPNet → Prop} {r : Result} (h : ResultWith N false r) {j : Json} (hj : r.json = some j) :
    j.clean.Decodes ∧ (decAnyMap none j.clean).isSome = true := by
  obtain ⟨ms, h1, h2⟩ := h.json
  rw [hj] at h1
  cases h1
  obtain ⟨l, hl⟩ := toAnyMembers_decodes h2
  have hd := Json.clean_decodes (.obj ms) (.obj (GoMap.ofList l)) (by simp [Json.toAny, hl])
  refine ⟨hd, ?_⟩
  simp only [Json.clean] at hd ⊢
  obtain ⟨j', hj'⟩ := hd
  simp only [Json.toAny, Option.map_eq_some_iff] at hj'
  obtain ⟨l', hl', -⟩ := hj'
  simp [decAnyMap, hl']

/-- A result as it is read from a document, or none. Proof device: models no code. -/
def PrevRead (prev : Option Result) : Prop := ∀ r, prev = some r → ResultWith NetRead false r

theorem PrevRead.doc {prev : Option Result} (h : PrevRead prev) : ∃ P, prevJson prev = some P ∧
    ∀ j, P = some j → j.NumsOK ∧ j.clean.Decodes ∧ (decAnyMap none j.clean).isSome = true := by
  cases prev with
  | none => exact ⟨none, rfl, by simp⟩
  | some r =>
    have hr := h r rfl
    obtain ⟨ms, h1, -⟩ := hr.json
    refine ⟨some (.obj ms), by simp [prevJson, h1], ?_⟩
    rintro j hj
    cases hj
    exact ⟨Result.json_numsOK h1, hr.anyMap h1⟩

theorem fieldMatch_base : fieldMatch pluginConfFields b!"prevResult" = some b!"prevResult" ∧
    fieldMatch pluginConfFields b!"runtimeConfig" = none := by decide +kernel

/-- The configuration for a sound plugin can always be prepared. -/
theorem buildOneConfig_progress {name ver : Bytes} {p : PluginConfig} {prev : Option Result} {rt : RuntimeConf} (hrt : rt.OK)
    (hs : Sound p) (hp : PrevRead prev) : ∃ conf, buildOneConfig name ver p prev rt = .ok conf := by
  obtain ⟨P, hP, hPj⟩ := hp.doc
  have hmem : ∀ kv ∈ goodVals (baseValues name ver P),
      kv = (b!"name", .str name) ∨ kv = (b!"cniVersion", .str ver) ∨ ∃ j, P = some j ∧ kv = (b!"prevResult", j) := by
    intro kv hkv
    cases P with
    | none => simp [goodVals, baseValues] at hkv; rcases hkv with h | h <;> simp [h]
    | some j => simp [goodVals, baseValues] at hkv; rcases hkv with h | h | h <;> simp [h]
  obtain ⟨p1, hi, -, hs1⟩ := Sound_inject_vals hs (baseValues_good name ver P) (baseValues_ok fun j hj => (hPj j hj).1)
    (by intro kv hkv; rcases hmem kv hkv with rfl | rfl | ⟨j, -, rfl⟩ <;> simp)
    (by
      intro kv hkv f hf
      rcases hmem kv hkv with rfl | rfl | ⟨j, hj, rfl⟩
      · rw [fieldMatch_bare.1] at hf; cases hf; rfl
      · rw [fieldMatch_bare.2.1] at hf; cases hf; rfl
      · rw [fieldMatch_base.1] at hf; cases hf
        exact (hPj j hj).2.2)
  have hs1 := hs1 (by
    intro kv hkv
    rcases hmem kv hkv with rfl | rfl | ⟨j, hj, rfl⟩
    · exact decodes_str _
    · exact decodes_str _
    · exact (hPj j hj).2.1)
  unfold buildOneConfig
  rw [hP]
  simp only [Out.ofOption_some, Out.bind_ok, hi]
  unfold injectRuntimeConfig
  simp only
  split
  · exact ⟨_, rfl⟩
  · obtain ⟨ms0, M0, c0, g1, gm, -⟩ := hs
    obtain ⟨m0, gm⟩ := (members_inRange (Json.parse_WF g1)).2 gm
    obtain ⟨ms, hb, hj⟩ := (pluginConfFromBytes_ok ((injectConf_obj g1 gm (baseValues_good name ver P)).symm.trans hi)).2.2
    have hb' := parse_insertAll (ofList_WF (Json.parse_WF g1) gm) (baseValues_ok (name := name) (ver := ver) fun j hj => (hPj j hj).1)
    have hms := Option.some.inj (hb.symm.trans hb')
    subst hms
    obtain ⟨hcs, hcu⟩ := capabilities_ok (Json.parse_WF hb) hj
    have hrc := runtimeConfigMap_ok hcs hrt.sorted hcu hrt.nums
    obtain ⟨conf, hc, -⟩ := Sound_inject_vals hs1
      (kvs := [(b!"runtimeConfig", some (.obj (runtimeConfigMap p1.network.capabilities rt.capArgs)))]) (by simp [AllGood])
      (by
        intro kv hkv
        simp [goodVals] at hkv
        subst hkv
        refine ⟨rfl, ?_⟩
        simp only [Json.NumsOK]
        rw [NumsOKMembers_iff]
        exact fun x hx => (hrc x hx).2)
      (by intro kv hkv; simp [goodVals] at hkv; subst hkv; simp)
      (by intro kv hkv f hf; simp [goodVals] at hkv; subst hkv; rw [fieldMatch_base.2] at hf; cases hf)
    exact ⟨conf, hc⟩

/-! ### runs -/

theorem allFound_append {a b : Trace} : AllFound (a ++ b) ↔ AllFound a ∧ AllFound b := by
  simp only [AllFound, finds_append, List.mem_append]
  exact ⟨fun h => ⟨fun f hf => h f (.inl hf), fun f hf => h f (.inr hf)⟩, fun h f hf => hf.elim (h.1 f) (h.2 f)⟩
theorem allExited_append {a b : Trace} : AllExited (a ++ b) ↔ AllExited a ∧ AllExited b := by
  simp only [AllExited, execs_append, List.mem_append]
  exact ⟨fun h => ⟨fun f hf => h f (.inl hf), fun f hf => h f (.inr hf)⟩, fun h f hf => hf.elim (h.1 f) (h.2 f)⟩
theorem allReturned_append {a b : Trace} : AllReturned (a ++ b) ↔ AllReturned a ∧ AllReturned b := by
  simp only [AllReturned, execs_append, List.mem_append]
  exact ⟨fun h => ⟨fun f hf => h f (.inl hf), fun f hf => h f (.inr hf)⟩, fun h f hf => hf.elim (h.1 f) (h.2 f)⟩

theorem allFound_find {n : Bytes} {ps : List Bytes} {r : Except GoErr Bytes} :
    AllFound [⟨.find n ps, r⟩] ↔ ∃ p, r = .ok p := by
  show (∀ f ∈ [(⟨n, ps, r⟩ : FindEv)], _) ↔ _
  simp
theorem allExited_exec {b s : Bytes} {a : PArgs} {r : Except GoErr Bytes} :
    AllExited [⟨.exec b s a, r⟩] ↔ ∃ out, r = .ok out := by
  show (∀ e ∈ [(⟨b, s, a, r⟩ : ExecEv)], _) ↔ _
  simp [Succeeded]
theorem allReturned_exec {b s : Bytes} {a : PArgs} {r : Except GoErr Bytes} :
    AllReturned [⟨.exec b s a, r⟩] ↔ ∃ x, addOutcome ⟨b, s, a, r⟩ = .ok x := by
  show (∀ e ∈ [(⟨b, s, a, r⟩ : ExecEv)], _) ↔ _
  simp [addOutcome_ok]

/-- What a plugin returned is as read from a document. -/
theorem returned_read {e : ExecEv} {r : Result} (h : Returned e r) : ResultWith NetRead false r := by
  obtain ⟨out, -, h⟩ := h
  unfold resultOfOutput at h
  obtain ⟨⟨v, b⟩, -, h⟩ := Out.bind_eq_ok h
  exact create_read h

theorem loadResult_read {data ver : Bytes} {prev : Option Result} (h : loadResult data ver = .ok prev) : PrevRead prev := by
  unfold loadResult at h
  obtain ⟨r, h1, h⟩ := Out.bind_eq_ok h
  obtain ⟨r', h2, h⟩ := Out.bind_eq_ok h
  unfold createFromBytes at h1
  obtain ⟨v, -, h1⟩ := Out.bind_eq_ok h1
  cases h
  rintro x hx
  cases hx
  have h3 : r.getAsVersion ver = .ok r' := by
    revert h2
    cases r.getAsVersion ver <;> simp [Out.wrapErr]
  exact getAsVersion_with h3 (create_read h1)

/-- What is read from the cache is as read from a document. -/
theorem getCachedResult_read {c : CNIConfig} {name ver : Bytes} {rt : RuntimeConf} {prev : Option Result}
    (h : Runs flt (c.getCachedResult name ver rt) fs tr fs' (.ok prev)) : PrevRead prev := by
  unfold CNIConfig.getCachedResult at h
  split at h
  · obtain ⟨r, fs1, tr', hs, rfl, hr⟩ := runs_op.1 h
    cases r with
    | none =>
      obtain ⟨-, -, ho⟩ := runs_done.1 hr
      cases ho; intro r hr; cases hr
    | some b =>
      simp only at hr
      split at hr
      · obtain ⟨r2, fs2, tr2, hs2, -, hr2⟩ := runs_op.1 hr
        obtain ⟨-, -, ho⟩ := runs_done.1 hr2
        cases r2 with
        | none => cases ho; intro r hr; cases hr
        | some b2 => exact loadResult_read ho.symm
      · obtain ⟨-, -, ho⟩ := runs_done.1 hr
        exact loadResult_read ho.symm
  · obtain ⟨-, -, ho⟩ := runs_done.1 h; cases ho
  · obtain ⟨-, -, ho⟩ := runs_done.1 h; cases ho

theorem allFound_nil : AllFound [] := by intro f hf; simp [Trace.finds] at hf
theorem allExited_nil : AllExited [] := by intro f hf; simp [Trace.execs] at hf
theorem allReturned_nil : AllReturned [] := by intro f hf; simp [Trace.execs] at hf

theorem addNetwork1_progress {c : CNIConfig} {name ver : Bytes} {net : PluginConfig} {prev : Option Result} {rt : RuntimeConf}
    (hrt : rt.OK) (hs : Sound net) (hp : PrevRead prev) {o : Out Result} (h : Runs flt (c.addNetwork1 name ver net prev rt) fs tr fs' o) :
    ((∃ r, o = .ok r) ↔ (ValidName rt.containerID ∧ ValidName name ∧ ValidIfName rt.ifName) ∧ AllFound tr ∧ AllReturned tr) ∧
      ∀ r, o = .ok r → ResultWith NetRead false r := by
  unfold CNIConfig.addNetwork1 at h
  simp only [prog_bind_eq] at h
  obtain ⟨tr1, tr2, fs1, o1, rfl, h1, h2⟩ := runs_bind.1 h
  obtain ⟨r, rfl, rfl, rfl⟩ := runs_findPlugin.1 h1
  rw [allFound_append, allReturned_append, allFound_find]
  cases r with
  | error g =>
    obtain ⟨rfl, rfl, rfl⟩ := h2
    simp
  | ok path =>
    obtain ⟨tr3, tr4, fs2, o2, rfl, h3, h4⟩ := runs_bind.1 h2
    obtain ⟨rfl, rfl, rfl⟩ := runs_lift.1 h3
    have hval := validateAdd_iff (name := name) (rt := rt)
    cases hva : validateAdd name rt with
    | panic => exact absurd hva hval.2
    | err g =>
      rw [hva] at h4
      obtain ⟨rfl, rfl, rfl⟩ := h4
      rw [hva] at hval
      have : ¬ (ValidName rt.containerID ∧ ValidName name ∧ ValidIfName rt.ifName) := fun hx => by
        have := hval.1.2 hx; cases this
      simp [this]
    | ok u =>
      rw [hva] at h4
      obtain ⟨tr5, tr6, fs3, o3, rfl, h5, h6⟩ := runs_bind.1 h4
      obtain ⟨rfl, rfl, rfl⟩ := runs_lift.1 h5
      obtain ⟨conf, hb⟩ := buildOneConfig_progress (name := name) (ver := ver) hrt hs hp
      rw [hb] at h6
      obtain ⟨r, rfl, rfl, rfl⟩ := runs_execWithResult.1 h6
      have hv := hval.1.1 hva
      refine ⟨?_, fun x hx => returned_read (addOutcome_ok.1 hx)⟩
      simp only [List.nil_append, allReturned_exec]
      constructor
      · intro hx
        refine ⟨hv, ⟨⟨_, rfl⟩, ?_⟩, ?_, hx⟩
        · intro f hf; simp [Trace.finds, Event.find?] at hf
        · intro f hf; simp [Trace.execs, Event.exec?] at hf
      · rintro ⟨-, -, -, hx⟩; exact hx

theorem addLoop_progress {c : CNIConfig} {name ver : Bytes} {rt : RuntimeConf} (hrt : rt.OK) {ps : List PluginConfig}
    (hs : ∀ p ∈ ps, Sound p) :
    ∀ {prev : Option Result} {fs fs' : FS} {tr : Trace} {o : Out (Option Result)}, PrevRead prev →
    Runs flt (c.addLoop name ver rt ps prev) fs tr fs' o →
    ((∃ x, o = .ok x) ↔ (ps = [] ∨ (ValidName rt.containerID ∧ ValidName name ∧ ValidIfName rt.ifName)) ∧ AllFound tr ∧ AllReturned tr) ∧
      (∀ x, o = .ok x → PrevRead x ∧ (ps ≠ [] → x ≠ none)) := by
  induction ps with
  | nil =>
    intro prev fs fs' tr o hp h
    obtain ⟨rfl, rfl, rfl⟩ := runs_done.1 h
    exact ⟨by simp [allFound_nil, allReturned_nil], fun x hx => by cases hx; exact ⟨hp, fun h => absurd rfl h⟩⟩
  | cons net rest ih =>
    intro prev fs fs' tr o hp h
    unfold CNIConfig.addLoop at h
    obtain ⟨tr1, tr2, fs1, o1, rfl, h1, h2⟩ := runs_bind.1 h
    obtain ⟨o0, h0, rfl⟩ := runs_mapErr.1 h1
    obtain ⟨hi, hr⟩ := addNetwork1_progress hrt (hs net (by simp)) hp h0
    rw [allFound_append, allReturned_append]
    cases o0 with
    | err g =>
      obtain ⟨rfl, rfl, rfl⟩ := h2
      have hi : ¬ _ := fun hx => by obtain ⟨r, hr⟩ := hi.2 hx; cases hr
      refine ⟨⟨by simp, ?_⟩, by simp⟩
      rintro ⟨hv, ⟨h3, -⟩, h4, -⟩
      exact absurd ⟨hv.resolve_left (by simp), h3, h4⟩ hi
    | panic =>
      obtain ⟨rfl, rfl, rfl⟩ := h2
      have hi : ¬ _ := fun hx => by obtain ⟨r, hr⟩ := hi.2 hx; cases hr
      refine ⟨⟨by simp, ?_⟩, by simp⟩
      rintro ⟨hv, ⟨h3, -⟩, h4, -⟩
      exact absurd ⟨hv.resolve_left (by simp), h3, h4⟩ hi
    | ok r =>
      obtain ⟨hv, h3, h4⟩ := hi.1 ⟨r, rfl⟩
      have hpr : PrevRead (some r) := fun x hx => by cases hx; exact hr _ rfl
      obtain ⟨a, b⟩ := ih (fun p hp => hs p (by simp [hp])) hpr h2
      rw [a]
      refine ⟨by simp [hv, h3, h4], ?_⟩
      intro x hx
      refine ⟨(b x hx).1, fun _ => ?_⟩
      cases rest with
      | nil =>
        obtain ⟨-, -, ho⟩ := runs_done.1 h2
        rw [hx] at ho; cases ho; simp
      | cons q qs => exact (b x hx).2 (by simp)

/-! ### operations on the cache search for nothing and execute nothing -/

theorem fileOps_found {α : Type} {p : Prog α} (hp : p.All fun a => a.isExec = false ∧ a.isFind = false) {o : Out α}
    (h : Runs flt p fs tr fs' o) : AllFound tr ∧ AllExited tr ∧ AllReturned tr := by
  have hx := hp.runs h
  have h1 : tr.execs = [] := by
    rw [Trace.execs, List.filterMap_eq_nil_iff]; exact fun e he => Event.exec?_none (hx e he).1
  have h2 : tr.finds = [] := by
    rw [Trace.finds, List.filterMap_eq_nil_iff]; exact fun e he => Event.find?_none (hx e he).2
  simp [AllFound, AllExited, AllReturned, h1, h2]

theorem cacheAdd_files {c : CNIConfig} {result : Option Result} {config name : Bytes} {rt : RuntimeConf} :
    (c.cacheAdd result config name rt).All fun a => a.isExec = false ∧ a.isFind = false := by
  unfold CNIConfig.cacheAdd
  split
  · trivial
  · split
    · refine ⟨⟨rfl, rfl⟩, fun r => ?_⟩
      cases r with
      | false => trivial
      | true =>
        refine ⟨⟨rfl, rfl⟩, fun r => ?_⟩
        cases r <;> trivial
    · trivial
    · trivial

theorem cacheDel_files {c : CNIConfig} {name : Bytes} {rt : RuntimeConf} :
    (c.cacheDel name rt).All fun a => a.isExec = false ∧ a.isFind = false := by
  unfold CNIConfig.cacheDel
  split
  · refine ⟨⟨rfl, rfl⟩, fun r => ?_⟩
    cases r <;> trivial
  · trivial

theorem getCachedResult_files {c : CNIConfig} {name ver : Bytes} {rt : RuntimeConf} :
    (c.getCachedResult name ver rt).All fun a => a.isExec = false ∧ a.isFind = false :=
  getCachedResult_looks.mono fun a ⟨p, hp, _⟩ => by rw [hp]; exact ⟨rfl, rfl⟩

/-- Writing the entry of an attachment, given its names: nothing but the file system can make it fail. -/
theorem cacheAdd_progress {c : CNIConfig} {result : Option Result} {config name : Bytes} {rt : RuntimeConf} (hr : PrevRead result)
    (hn : name ≠ [] ∧ rt.containerID ≠ [] ∧ rt.ifName ≠ []) {o : Out Unit}
    (h : Runs false (c.cacheAdd result config name rt) fs tr fs' o) : o = .ok () := by
  obtain ⟨P, hP, hPj⟩ := hr.doc
  have hi : ∃ info, cachedInfoOf result config name rt = some info := by
    unfold cachedInfoOf
    rw [hP]
    cases P with
    | none => exact ⟨_, rfl⟩
    | some j =>
      obtain ⟨a, b, d⟩ := hPj j rfl
      obtain ⟨m, hm⟩ := Option.isSome_iff_exists.1 d
      simp only [Option.bind_eq_bind, Option.bind_some, Option.getD_some, Json.parse_print_clean _ a, hm]
      exact ⟨_, rfl⟩
  have hp : ∃ p, c.cachePath name rt = .ok p := by
    unfold CNIConfig.cachePath
    rw [if_neg (by simp [hn])]
    exact ⟨_, rfl⟩
  obtain ⟨info, hi⟩ := hi
  obtain ⟨p, hp⟩ := hp
  unfold CNIConfig.cacheAdd at h
  rw [hi] at h
  simp only [hp] at h
  obtain ⟨r, fs1, tr', hs, rfl, hr⟩ := runs_op.1 h
  cases hs with
  | mkdirAllFails _ hf => cases hf
  | mkdirAll =>
    obtain ⟨r, fs2, tr', hs, rfl, hr⟩ := runs_op.1 hr
    cases hs with
    | writeFile => exact (runs_done.1 hr).2.2
    | writeFileFails _ _ hf => cases hf
    | writeFileTorn _ _ n hf => cases hf

/-! ### ADD -/

theorem ValidName.ne_nil {s : Bytes} (h : ValidName s) : s ≠ [] := by
  obtain ⟨a, t, rfl, -⟩ := h; simp

/-- C63: ADD of a list succeeds exactly if the names of the attachment are valid, every plugin was found, and every plugin
executed exited successfully and printed a result that can be read: nothing else can make it fail, as long as files can be written. -/
theorem c63_add_list (c : CNIConfig) (list : NetConfList) (rt : RuntimeConf) (hrt : rt.OK) (hs : ∀ p ∈ list.plugins, Sound p)
    (hne : list.plugins ≠ []) (fs fs' : FS) (tr : Trace) (o : Out (Option Result)) (h : Runs false (c.addNetworkList list rt) fs tr fs' o) :
    (∃ x, o = .ok x) ↔
      (ValidName rt.containerID ∧ ValidName list.name ∧ ValidIfName rt.ifName) ∧ AllFound tr ∧ AllReturned tr := by
  unfold CNIConfig.addNetworkList at h
  simp only [prog_bind_eq] at h
  obtain ⟨tr1, tr2, fs1, o1, rfl, h1, h2⟩ := runs_bind.1 h
  obtain ⟨hi, hx⟩ := addLoop_progress hrt hs (fun r hr => by cases hr) h1
  simp only [hne, false_or] at hi
  rw [allFound_append, allReturned_append]
  cases o1 with
  | err g =>
    obtain ⟨rfl, rfl, rfl⟩ := h2
    refine ⟨by simp, ?_⟩
    rintro ⟨hv, ⟨h3, -⟩, h4, -⟩
    obtain ⟨x, hx⟩ := hi.2 ⟨hv, h3, h4⟩
    cases hx
  | panic =>
    obtain ⟨rfl, rfl, rfl⟩ := h2
    refine ⟨by simp, ?_⟩
    rintro ⟨hv, ⟨h3, -⟩, h4, -⟩
    obtain ⟨x, hx⟩ := hi.2 ⟨hv, h3, h4⟩
    cases hx
  | ok r =>
    obtain ⟨hv, h3, h4⟩ := hi.1 ⟨r, rfl⟩
    obtain ⟨tr3, tr4, fs2, o2, rfl, h5, h6⟩ := runs_bind.1 h2
    obtain ⟨o0, h0, rfl⟩ := runs_mapErr.1 h5
    have := cacheAdd_progress (hx r rfl).1 ⟨ValidName.ne_nil hv.2.1, ValidName.ne_nil hv.1, fun e => by have := hv.2.2.1; rw [e] at this; cases this⟩ h0
    subst this
    obtain ⟨rfl, rfl, rfl⟩ := runs_done.1 h6
    obtain ⟨f1, -, f2⟩ := fileOps_found cacheAdd_files h0
    simp [hv, h3, h4, f1, f2]

/-- C63: likewise for ADD of a single network. -/
theorem c63_add_network (c : CNIConfig) (net : PluginConfig) (rt : RuntimeConf) (hrt : rt.OK) (hs : Sound net)
    (fs fs' : FS) (tr : Trace) (o : Out Result) (h : Runs false (c.addNetwork net rt) fs tr fs' o) :
    (∃ x, o = .ok x) ↔
      (ValidName rt.containerID ∧ ValidName net.network.name ∧ ValidIfName rt.ifName) ∧ AllFound tr ∧ AllReturned tr := by
  unfold CNIConfig.addNetwork at h
  simp only [prog_bind_eq] at h
  obtain ⟨tr1, tr2, fs1, o1, rfl, h1, h2⟩ := runs_bind.1 h
  obtain ⟨hi, hx⟩ := addNetwork1_progress hrt hs (fun r hr => by cases hr) h1
  rw [allFound_append, allReturned_append]
  cases o1 with
  | err g =>
    obtain ⟨rfl, rfl, rfl⟩ := h2
    refine ⟨by simp, ?_⟩
    rintro ⟨hv, ⟨h3, -⟩, h4, -⟩
    obtain ⟨x, hx⟩ := hi.2 ⟨hv, h3, h4⟩
    cases hx
  | panic =>
    obtain ⟨rfl, rfl, rfl⟩ := h2
    refine ⟨by simp, ?_⟩
    rintro ⟨hv, ⟨h3, -⟩, h4, -⟩
    obtain ⟨x, hx⟩ := hi.2 ⟨hv, h3, h4⟩
    cases hx
  | ok r =>
    obtain ⟨hv, h3, h4⟩ := hi.1 ⟨r, rfl⟩
    obtain ⟨tr3, tr4, fs2, o2, rfl, h5, h6⟩ := runs_bind.1 h2
    obtain ⟨o0, h0, rfl⟩ := runs_mapErr.1 h5
    have hpr : PrevRead (some r) := fun x h => by cases h; exact hx _ rfl
    have := cacheAdd_progress hpr ⟨ValidName.ne_nil hv.2.1, ValidName.ne_nil hv.1, fun e => by have := hv.2.2.1; rw [e] at this; cases this⟩ h0
    subst this
    obtain ⟨rfl, rfl, rfl⟩ := runs_done.1 h6
    obtain ⟨f1, -, f2⟩ := fileOps_found cacheAdd_files h0
    simp [hv, h3, h4, f1, f2]

/-! ### CHECK and DEL -/

theorem runNetwork1_progress {c : CNIConfig} {verb name ver : Bytes} {net : PluginConfig} {prev : Option Result} {rt : RuntimeConf}
    (hrt : rt.OK) (hs : Sound net) (hp : PrevRead prev) {o : Out Unit} (h : Runs flt (c.runNetwork1 verb name ver net prev rt) fs tr fs' o) :
    o = .ok () ↔ AllFound tr ∧ AllExited tr := by
  unfold CNIConfig.runNetwork1 at h
  simp only [prog_bind_eq] at h
  obtain ⟨tr1, tr2, fs1, o1, rfl, h1, h2⟩ := runs_bind.1 h
  obtain ⟨r, rfl, rfl, rfl⟩ := runs_findPlugin.1 h1
  rw [allFound_append, allExited_append, allFound_find]
  cases r with
  | error g =>
    obtain ⟨rfl, rfl, rfl⟩ := h2
    simp
  | ok path =>
    obtain ⟨tr5, tr6, fs3, o3, rfl, h5, h6⟩ := runs_bind.1 h2
    obtain ⟨rfl, rfl, rfl⟩ := runs_lift.1 h5
    obtain ⟨conf, hb⟩ := buildOneConfig_progress (name := name) (ver := ver) hrt hs hp
    rw [hb] at h6
    obtain ⟨r, rfl, rfl, rfl⟩ := runs_execWithoutResult.1 h6
    rw [runOutcome_ok.1]
    simp only [List.nil_append, allExited_exec]
    constructor
    · intro hx
      refine ⟨⟨⟨_, rfl⟩, ?_⟩, ?_, hx⟩
      · intro f hf; simp [Trace.finds, Event.find?] at hf
      · intro f hf; simp [Trace.execs, Event.exec?] at hf
    · rintro ⟨-, -, hx⟩; exact hx

theorem sweep_progress {c : CNIConfig} {verb name ver : Bytes} {prev : Option Result} {rt : RuntimeConf} (hrt : rt.OK) (hp : PrevRead prev)
    {w : PluginConfig → GoErr → GoErr} {L : List PluginConfig → Prog Unit} (h0 : L [] = .done (.ok ()))
    (hL : ∀ net rest, L (net :: rest) = ((c.runNetwork1 verb name ver net prev rt).mapErr (w net)).bind fun _ => L rest)
    {ps : List PluginConfig} (hs : ∀ p ∈ ps, Sound p) :
    ∀ {fs fs' : FS} {tr : Trace} {o : Out Unit}, Runs flt (L ps) fs tr fs' o → (o = .ok () ↔ AllFound tr ∧ AllExited tr) := by
  induction ps with
  | nil =>
    intro fs fs' tr o h
    rw [h0] at h
    obtain ⟨rfl, rfl, rfl⟩ := runs_done.1 h
    simp [allFound_nil, allExited_nil]
  | cons net rest ih =>
    intro fs fs' tr o h
    rw [hL] at h
    obtain ⟨tr1, tr2, fs1, o1, rfl, h1, h2⟩ := runs_bind.1 h
    obtain ⟨o0, h0, rfl⟩ := runs_mapErr.1 h1
    have hi := runNetwork1_progress hrt (hs net (by simp)) hp h0
    rw [allFound_append, allExited_append]
    cases o0 with
    | err g =>
      obtain ⟨rfl, rfl, rfl⟩ := h2
      refine ⟨by simp, ?_⟩
      rintro ⟨⟨h3, -⟩, h4, -⟩
      have := hi.2 ⟨h3, h4⟩; cases this
    | panic =>
      obtain ⟨rfl, rfl, rfl⟩ := h2
      refine ⟨by simp, ?_⟩
      rintro ⟨⟨h3, -⟩, h4, -⟩
      have := hi.2 ⟨h3, h4⟩; cases this
    | ok u =>
      have := ih (fun p hp => hs p (by simp [hp])) h2
      rw [this]
      obtain ⟨h3, h4⟩ := hi.1 rfl
      simp [h3, h4]

theorem delLoop_progress {c : CNIConfig} {name ver : Bytes} {prev : Option Result} {rt : RuntimeConf} (hrt : rt.OK) (hp : PrevRead prev)
    {ps : List PluginConfig} (hs : ∀ p ∈ ps, Sound p) {o : Out Unit}
    (h : Runs flt ((c.delLoop name ver prev rt ps).bind fun _ => (c.cacheDel name rt).attempt.bind fun _ => .done (.ok ())) fs tr fs' o) :
    o = .ok () ↔ AllFound tr ∧ AllExited tr := by
  obtain ⟨tr1, tr2, fs1, o1, rfl, h1, h2⟩ := runs_bind.1 h
  have hi := sweep_progress
    (w := fun net => .wrap (b!"plugin " ++ pluginDescription net.network ++ b!" failed (delete)"))
    hrt hp (L := c.delLoop name ver prev rt) rfl (fun net rest => rfl) hs h1
  rw [allFound_append, allExited_append]
  cases o1 with
  | err g =>
    obtain ⟨rfl, rfl, rfl⟩ := h2
    refine ⟨by simp, ?_⟩
    rintro ⟨⟨h3, -⟩, h4, -⟩
    have := hi.2 ⟨h3, h4⟩; cases this
  | panic =>
    obtain ⟨rfl, rfl, rfl⟩ := h2
    refine ⟨by simp, ?_⟩
    rintro ⟨⟨h3, -⟩, h4, -⟩
    have := hi.2 ⟨h3, h4⟩; cases this
  | ok u =>
    obtain ⟨h3, h4⟩ := hi.1 rfl
    obtain ⟨tr3, tr4, fs2, o2, rfl, h5, h6⟩ := runs_bind.1 h2
    obtain ⟨o0, h0, rfl⟩ := runs_attempt.1 h5
    obtain ⟨f1, f2, -⟩ := fileOps_found cacheDel_files h0
    obtain ⟨-, hnp, -⟩ := runs_cacheDel h0
    have hst : tr4 = [] ∧ fs' = fs2 ∧ o = .ok () := by
      cases o0 with
      | panic => exact absurd rfl hnp
      | ok u => exact runs_done.1 h6
      | err g => exact runs_done.1 h6
    obtain ⟨rfl, rfl, rfl⟩ := hst
    simp [h3, h4, f1, f2]

/-- C63: DEL of a list succeeds exactly if the version can be read, every plugin was found, and every plugin executed exited
successfully, whatever the cache holds and whatever happens to the cache file. (It crashes only as C50 describes.) -/
theorem c63_del_list (c : CNIConfig) (list : NetConfList) (rt : RuntimeConf) (hrt : rt.OK) (hs : ∀ p ∈ list.plugins, Sound p)
    (fs fs' : FS) (tr : Trace) (o : Out Unit) (h : Runs flt (c.delNetworkList list rt) fs tr fs' o) (hnp : o ≠ .panic) :
    o = .ok () ↔ (∃ p, Reads list.cniVersion p) ∧ AllFound tr ∧ AllExited tr := by
  have hs' : ∀ p ∈ list.plugins.reverse, Sound p := fun p hp => hs p (List.mem_reverse.1 hp)
  unfold CNIConfig.delNetworkList at h
  simp only at h
  rcases gte_atLeast (v := list.cniVersion) reads_040 with ⟨hg, ha⟩ | ⟨hg, ha, hr⟩ | ⟨g, hg, ha, hr⟩
  · rw [hg] at h
    simp only at h
    have hr : ∃ p, Reads list.cniVersion p := by obtain ⟨p, hp, -⟩ := ha; exact ⟨p, hp⟩
    simp only [hr, true_and]
    obtain ⟨tr1, tr2, fs1, o1, rfl, h1, h2⟩ := runs_bind.1 h
    have hpre : o1 ≠ .panic → AllFound tr1 ∧ AllExited tr1 ∧ ∃ prev, o1 = .ok prev ∧ PrevRead prev := by
      intro hnp1
      unfold CNIConfig.delPrev at h1
      obtain ⟨tr3, tr4, fs2, o2, rfl, h3, h4⟩ := runs_bind.1 h1
      obtain ⟨o3, h5, rfl⟩ := runs_attempt.1 h3
      obtain ⟨f1, f2, -⟩ := fileOps_found getCachedResult_files h5
      rw [allFound_append, allExited_append]
      cases o3 with
      | panic => obtain ⟨rfl, rfl, rfl⟩ := h4; exact absurd rfl hnp1
      | ok prev =>
        obtain ⟨rfl, rfl, rfl⟩ := runs_done.1 h4
        exact ⟨⟨f1, allFound_nil⟩, ⟨f2, allExited_nil⟩, prev, rfl, getCachedResult_read h5⟩
      | err g =>
        obtain ⟨tr5, tr6, fs3, o4, rfl, h6, h7⟩ := runs_bind.1 h4
        obtain ⟨o5, h8, rfl⟩ := runs_attempt.1 h6
        obtain ⟨f3, f4, -⟩ := fileOps_found cacheDel_files h8
        obtain ⟨-, hnp2, -⟩ := runs_cacheDel h8
        have hst : tr6 = [] ∧ fs1 = fs3 ∧ o1 = .ok none := by
          cases o5 with
          | panic => exact absurd rfl hnp2
          | ok u => exact runs_done.1 h7
          | err g => exact runs_done.1 h7
        obtain ⟨rfl, rfl, rfl⟩ := hst
        refine ⟨⟨f1, ?_⟩, ⟨f2, ?_⟩, none, rfl, fun r hr => by cases hr⟩
        · simpa using f3
        · simpa using f4
    rw [allFound_append, allExited_append]
    by_cases hp1 : o1 = .panic
    · subst hp1
      obtain ⟨rfl, rfl, rfl⟩ := h2
      exact absurd rfl hnp
    · obtain ⟨f1, f2, prev, rfl, hpr⟩ := hpre hp1
      rw [delLoop_progress hrt hpr hs' h2]
      simp [f1, f2]
  · rw [hg] at h
    simp only [hr, true_and]
    exact delLoop_progress hrt (fun r hr => by cases hr) hs' h
  · rw [hg] at h
    obtain ⟨rfl, rfl, rfl⟩ := runs_done.1 h
    simp [hr]

/-- C63: DEL of a single network, from version 0.4.0 on, also requires that the cached result can be read (or that there is none). -/
theorem c63_del_network (c : CNIConfig) (net : PluginConfig) (rt : RuntimeConf) (hrt : rt.OK) (hs : Sound net)
    (fs fs' : FS) (tr : Trace) (o : Out Unit) (h : Runs false (c.delNetwork net rt) fs tr fs' o) (hnp : o ≠ .panic) :
    o = .ok () ↔ (∃ p, Reads net.network.cniVersion p) ∧
      (AtLeast net.network.cniVersion (0, 4, 0) →
        ∃ tr1 prev, Runs false (c.getNetworkCachedResult net rt) fs tr1 fs (.ok prev)) ∧ AllFound tr ∧ AllExited tr := by
  have hrest : ∀ {prev fs tr fs'} {o : Out Unit}, PrevRead prev → Runs false ((c.runNetwork1 b!"DEL" net.network.name net.network.cniVersion net prev rt).bind
      fun _ => (c.cacheDel net.network.name rt).attempt.bind fun _ => .done (.ok ())) fs tr fs' o → (o = .ok () ↔ AllFound tr ∧ AllExited tr) := by
    intro prev fs tr fs' o hp h
    obtain ⟨tr1, tr2, fs1, o1, rfl, h1, h2⟩ := runs_bind.1 h
    have hi := runNetwork1_progress hrt hs hp h1
    rw [allFound_append, allExited_append]
    cases o1 with
    | err g =>
      obtain ⟨rfl, rfl, rfl⟩ := h2
      refine ⟨by simp, ?_⟩
      rintro ⟨⟨h3, -⟩, h4, -⟩
      have := hi.2 ⟨h3, h4⟩; cases this
    | panic =>
      obtain ⟨rfl, rfl, rfl⟩ := h2
      refine ⟨by simp, ?_⟩
      rintro ⟨⟨h3, -⟩, h4, -⟩
      have := hi.2 ⟨h3, h4⟩; cases this
    | ok u =>
      obtain ⟨h3, h4⟩ := hi.1 rfl
      obtain ⟨tr3, tr4, fs2, o2, rfl, h5, h6⟩ := runs_bind.1 h2
      obtain ⟨o0, h0, rfl⟩ := runs_attempt.1 h5
      obtain ⟨f1, f2, -⟩ := fileOps_found cacheDel_files h0
      obtain ⟨-, hnp, -⟩ := runs_cacheDel h0
      have hst : tr4 = [] ∧ fs' = fs2 ∧ o = .ok () := by
        cases o0 with
        | panic => exact absurd rfl hnp
        | ok u => exact runs_done.1 h6
        | err g => exact runs_done.1 h6
      obtain ⟨rfl, rfl, rfl⟩ := hst
      simp [h3, h4, f1, f2]
  unfold CNIConfig.delNetwork at h
  simp only at h
  rcases gte_atLeast (v := net.network.cniVersion) reads_040 with ⟨hg, ha⟩ | ⟨hg, ha, hr⟩ | ⟨g, hg, ha, hr⟩
  · rw [hg] at h
    simp only at h
    have hr : ∃ p, Reads net.network.cniVersion p := by obtain ⟨p, hp, -⟩ := ha; exact ⟨p, hp⟩
    simp only [hr, true_and, ha, true_implies]
    obtain ⟨tr1, tr2, fs1, o1, rfl, h1, h2⟩ := runs_bind.1 h
    obtain ⟨o0, h0, rfl⟩ := runs_mapErr.1 h1
    obtain ⟨rfl, hne, hdet, -, hbad⟩ := runs_getCachedResult h0
    obtain ⟨f1, f2, -⟩ := fileOps_found getCachedResult_files h0
    have uniq : ∀ tr1 prev, Runs false (c.getNetworkCachedResult net rt) fs1 tr1 fs1 (.ok prev) → o0 = .ok prev := by
      intro tr1 prev hx
      obtain ⟨-, -, hdet', -, hbad'⟩ := runs_getCachedResult hx
      by_cases hp : ∃ p, c.cachePath net.network.name rt = .ok p
      · obtain ⟨p, hp⟩ := hp
        rw [hdet rfl p hp, hdet' rfl p hp]
      · obtain ⟨g, hg⟩ := hbad' (fun p hpp => hp ⟨p, hpp⟩)
        cases hg
    rw [allFound_append, allExited_append]
    cases o0 with
    | ok prev =>
      rw [hrest (getCachedResult_read h0) h2]
      have : ∃ tr1 prev, Runs false (c.getNetworkCachedResult net rt) fs1 tr1 fs1 (.ok prev) := ⟨_, _, h0⟩
      simp [f1, f2, this]
    | err g =>
      obtain ⟨rfl, rfl, rfl⟩ := h2
      refine ⟨by simp, ?_⟩
      rintro ⟨⟨tr', prev, hx⟩, -⟩
      have := uniq _ _ hx; cases this
    | panic =>
      obtain ⟨rfl, rfl, rfl⟩ := h2
      exact absurd rfl hnp
  · rw [hg] at h
    simp only [hr, true_and, ha, false_implies]
    exact hrest (fun r hr => by cases hr) h
  · rw [hg] at h
    obtain ⟨rfl, rfl, rfl⟩ := runs_done.1 h
    simp [hr]

/-- C63: CHECK of a list succeeds exactly if the version is 0.4.0 or later and either CHECK is disabled, or the cached result can be
read (or there is none), every plugin was found, and every plugin executed exited successfully. -/
theorem c63_check_list (c : CNIConfig) (list : NetConfList) (rt : RuntimeConf) (hrt : rt.OK) (hs : ∀ p ∈ list.plugins, Sound p)
    (fs fs' : FS) (tr : Trace) (o : Out Unit) (h : Runs false (c.checkNetworkList list rt) fs tr fs' o) :
    o = .ok () ↔ AtLeast list.cniVersion (0, 4, 0) ∧ (list.disableCheck = true ∨
      ((∃ tr1 prev, Runs false (c.getNetworkListCachedResult list rt) fs tr1 fs (.ok prev)) ∧ AllFound tr ∧ AllExited tr)) := by
  unfold CNIConfig.checkNetworkList at h
  rcases gte_atLeast (v := list.cniVersion) reads_040 with ⟨hg, ha⟩ | ⟨hg, ha, hr⟩ | ⟨g, hg, ha, hr⟩
  · rw [hg] at h
    simp only at h
    cases hd : list.disableCheck with
    | true =>
      rw [hd, if_pos rfl] at h
      obtain ⟨rfl, rfl, rfl⟩ := runs_done.1 h
      simp [ha]
    | false =>
      rw [hd, if_neg (by simp)] at h
      simp only [ha, true_and, Bool.false_eq_true, false_or]
      obtain ⟨tr1, tr2, fs1, o1, rfl, h1, h2⟩ := runs_bind.1 h
      obtain ⟨o0, h0, rfl⟩ := runs_mapErr.1 h1
      obtain ⟨rfl, hne, hdet, -, hbad⟩ := runs_getCachedResult h0
      obtain ⟨f1, f2, -⟩ := fileOps_found getCachedResult_files h0
      have uniq : ∀ tr1 prev, Runs false (c.getNetworkListCachedResult list rt) fs1 tr1 fs1 (.ok prev) → o0 = .ok prev := by
        intro tr1 prev hx
        obtain ⟨-, -, hdet', -, hbad'⟩ := runs_getCachedResult hx
        by_cases hp : ∃ p, c.cachePath list.name rt = .ok p
        · obtain ⟨p, hp⟩ := hp
          rw [hdet rfl p hp, hdet' rfl p hp]
        · obtain ⟨g, hg⟩ := hbad' (fun p hpp => hp ⟨p, hpp⟩)
          cases hg
      rw [allFound_append, allExited_append]
      cases o0 with
      | ok prev =>
        rw [sweep_progress (w := fun _ => id) hrt (getCachedResult_read h0) (L := c.checkLoop list.name list.cniVersion prev rt) rfl
          (fun net rest => by rw [mapErr_id]; rfl) hs h2]
        have : ∃ tr1 prev, Runs false (c.getNetworkListCachedResult list rt) fs1 tr1 fs1 (.ok prev) := ⟨_, _, h0⟩
        simp [f1, f2, this]
      | err g =>
        obtain ⟨rfl, rfl, rfl⟩ := h2
        refine ⟨by simp, ?_⟩
        rintro ⟨⟨tr', prev, hx⟩, -⟩
        have := uniq _ _ hx; cases this
      | panic =>
        obtain ⟨rfl, rfl, rfl⟩ := h2
        refine ⟨by simp, ?_⟩
        rintro ⟨⟨tr', prev, hx⟩, -⟩
        have := uniq _ _ hx; cases this
  · rw [hg] at h
    obtain ⟨rfl, rfl, rfl⟩ := runs_done.1 h
    simp [ha]
  · rw [hg] at h
    obtain ⟨rfl, rfl, rfl⟩ := runs_done.1 h
    simp [ha]

/-- C63: likewise for CHECK of a single network, which cannot be disabled. -/
theorem c63_check_network (c : CNIConfig) (net : PluginConfig) (rt : RuntimeConf) (hrt : rt.OK) (hs : Sound net)
    (fs fs' : FS) (tr : Trace) (o : Out Unit) (h : Runs false (c.checkNetwork net rt) fs tr fs' o) :
    o = .ok () ↔ AtLeast net.network.cniVersion (0, 4, 0) ∧
      (∃ tr1 prev, Runs false (c.getNetworkCachedResult net rt) fs tr1 fs (.ok prev)) ∧ AllFound tr ∧ AllExited tr := by
  unfold CNIConfig.checkNetwork at h
  rcases gte_atLeast (v := net.network.cniVersion) reads_040 with ⟨hg, ha⟩ | ⟨hg, ha, hr⟩ | ⟨g, hg, ha, hr⟩
  · rw [hg] at h
    simp only at h
    simp only [ha, true_and]
    obtain ⟨tr1, tr2, fs1, o1, rfl, h1, h2⟩ := runs_bind.1 h
    obtain ⟨o0, h0, rfl⟩ := runs_mapErr.1 h1
    obtain ⟨rfl, hne, hdet, -, hbad⟩ := runs_getCachedResult h0
    obtain ⟨f1, f2, -⟩ := fileOps_found getCachedResult_files h0
    have uniq : ∀ tr1 prev, Runs false (c.getNetworkCachedResult net rt) fs1 tr1 fs1 (.ok prev) → o0 = .ok prev := by
      intro tr1 prev hx
      obtain ⟨-, -, hdet', -, hbad'⟩ := runs_getCachedResult hx
      by_cases hp : ∃ p, c.cachePath net.network.name rt = .ok p
      · obtain ⟨p, hp⟩ := hp
        rw [hdet rfl p hp, hdet' rfl p hp]
      · obtain ⟨g, hg⟩ := hbad' (fun p hpp => hp ⟨p, hpp⟩)
        cases hg
    rw [allFound_append, allExited_append]
    cases o0 with
    | ok prev =>
      rw [runNetwork1_progress hrt hs (getCachedResult_read h0) h2]
      have : ∃ tr1 prev, Runs false (c.getNetworkCachedResult net rt) fs1 tr1 fs1 (.ok prev) := ⟨_, _, h0⟩
      simp [f1, f2, this]
    | err g =>
      obtain ⟨rfl, rfl, rfl⟩ := h2
      refine ⟨by simp, ?_⟩
      rintro ⟨⟨tr', prev, hx⟩, -⟩
      have := uniq _ _ hx; cases this
    | panic =>
      obtain ⟨rfl, rfl, rfl⟩ := h2
      refine ⟨by simp, ?_⟩
      rintro ⟨⟨tr', prev, hx⟩, -⟩
      have := uniq _ _ hx; cases this
  · rw [hg] at h
    obtain ⟨rfl, rfl, rfl⟩ := runs_done.1 h
    simp [ha]
  · rw [hg] at h
    obtain ⟨rfl, rfl, rfl⟩ := runs_done.1 h
    simp [ha]

/-! ### STATUS and GC -/

theorem bareNetwork1_progress {c : CNIConfig} {verb : Bytes} {net : PluginConfig} {o : Out Unit}
    (h : Runs flt (c.bareNetwork1 verb net) fs tr fs' o) : (o = .ok () ↔ AllFound tr ∧ AllExited tr) ∧ o ≠ .panic := by
  unfold CNIConfig.bareNetwork1 at h
  simp only [prog_bind_eq] at h
  obtain ⟨tr1, tr2, fs1, o1, rfl, h1, h2⟩ := runs_bind.1 h
  obtain ⟨r, rfl, rfl, rfl⟩ := runs_findPlugin.1 h1
  rw [allFound_append, allExited_append, allFound_find]
  cases r with
  | error g =>
    obtain ⟨rfl, rfl, rfl⟩ := h2
    simp
  | ok path =>
    obtain ⟨r, rfl, rfl, rfl⟩ := runs_execWithoutResult.1 h2
    refine ⟨?_, runOutcome_ok.2.1⟩
    rw [runOutcome_ok.1, allExited_exec]
    constructor
    · intro hx
      refine ⟨⟨⟨_, rfl⟩, ?_⟩, ?_, hx⟩
      · intro f hf; simp [Trace.finds, Event.find?] at hf
      · intro f hf; simp [Trace.execs, Event.exec?] at hf
    · rintro ⟨-, -, hx⟩; exact hx

/-- C63: STATUS succeeds exactly if every plugin searched for was found, and every plugin executed exited successfully. -/
theorem c63_status (c : CNIConfig) (list : NetConfList) (hs : ∀ p ∈ list.plugins, Sound p)
    (fs fs' : FS) (tr : Trace) (o : Out Unit) (h : Runs flt (c.getStatusNetworkList list) fs tr fs' o) :
    o = .ok () ↔ AllFound tr ∧ AllExited tr := by
  unfold CNIConfig.getStatusNetworkList at h
  split at h
  · revert h hs
    generalize list.plugins = ps
    intro hs h
    induction ps generalizing fs tr with
    | nil =>
      obtain ⟨rfl, rfl, rfl⟩ := runs_done.1 h
      simp [allFound_nil, allExited_nil]
    | cons p ps ih =>
      unfold CNIConfig.statusLoop at h
      obtain ⟨conf, hc, -⟩ := Sound_inject (hs p (by simp)) list.name list.cniVersion none
      rw [hc] at h
      obtain ⟨tr1, tr2, fs1, o1, rfl, h1, h2⟩ := runs_bind.1 h
      obtain ⟨rfl, rfl, rfl⟩ := runs_lift.1 h1
      obtain ⟨tr3, tr4, fs2, o2, rfl, h3, h4⟩ := runs_bind.1 h2
      obtain ⟨hi, hnp⟩ := bareNetwork1_progress h3
      simp only [List.nil_append]
      rw [allFound_append, allExited_append]
      cases o2 with
      | panic => exact absurd rfl hnp
      | err g =>
        obtain ⟨rfl, rfl, rfl⟩ := h4
        refine ⟨by simp, ?_⟩
        rintro ⟨⟨h3, -⟩, h4, -⟩
        have := hi.2 ⟨h3, h4⟩; cases this
      | ok u =>
        rw [ih _ _ (fun p hp => hs p (by simp [hp])) h4]
        obtain ⟨h3, h4⟩ := hi.1 rfl
        simp [h3, h4]
  · obtain ⟨rfl, rfl, rfl⟩ := runs_done.1 h
    simp [allFound_nil, allExited_nil]

theorem getCachedAttachments_files {c : CNIConfig} {cid : Bytes} :
    (c.getCachedAttachments cid).All fun a => a.isExec = false ∧ a.isFind = false := by
  unfold CNIConfig.getCachedAttachments
  refine ⟨⟨rfl, rfl⟩, fun r => ?_⟩
  cases r with
  | error b => cases b <;> trivial
  | ok names => exact attachmentLoop_looks.mono fun a ⟨p, hp⟩ => by subst hp; exact ⟨rfl, rfl⟩

theorem dels_progress {c : CNIConfig} {list : NetConfList} {l : List Attachment} {os : List (Out Unit)}
    (h : Dels flt c list l fs tr fs' os) (hok : ∀ a ∈ l, (rtOf a).OK) (hs : ∀ p ∈ list.plugins, Sound p)
    (hv : ∃ p, Reads list.cniVersion p) (hnp : ∀ x ∈ os, x ≠ .panic) :
    os.filterMap outFailure = [] ↔ AllFound tr ∧ AllExited tr := by
  induction h with
  | nil => simp [allFound_nil, allExited_nil]
  | @cons a l fs fs1 fs2 tr1 tr2 o os h hl ih =>
    have h1 := c63_del_list c list (rtOf a) (hok a (by simp)) hs _ _ _ o h (hnp o (by simp))
    have h2 := ih (fun a ha => hok a (by simp [ha])) (fun x hx => hnp x (by simp [hx]))
    have h3 := hnp o (by simp)
    rw [allFound_append, allExited_append]
    simp only [hv, true_and] at h1
    cases o with
    | panic => exact absurd rfl h3
    | ok u =>
      obtain ⟨h4, h5⟩ := h1.1 rfl
      rw [List.filterMap_cons_none rfl, h2]
      simp [h4, h5]
    | err g =>
      simp only [List.filterMap_cons, outFailure, reduceCtorEq, false_iff] at h1 ⊢
      rintro ⟨⟨h4, -⟩, h5, -⟩
      exact h1 ⟨h4, h5⟩

theorem asks_progress {c : CNIConfig} {verb name ver : Bytes} {valid : Option (List GCAttachment)} {ps : List PluginConfig}
    {gs : List (Option GoErr)} (h : Asks c verb name ver valid ps tr gs) : gs.filterMap id = [] ↔ AllFound tr ∧ AllExited tr := by
  induction h with
  | nil => simp [allFound_nil, allExited_nil]
  | @notFound p ps g tr gs h ih =>
    have : ¬ AllFound (⟨.find p.network.type c.path, (.error g : Except GoErr Bytes)⟩ :: tr) := by
      intro hx
      obtain ⟨x, hx⟩ := allFound_find.1 (allFound_append (a := [_]).1 hx).1
      cases hx
    simp [this]
  | @asked p ps stdin path r tr gs hs h ih =>
    have e1 : AllExited [(⟨.find p.network.type c.path, (.ok path : Except GoErr Bytes)⟩ : Event)] := by
      intro f hf; simp [Trace.execs, Event.exec?] at hf
    have e2 : AllFound [(⟨.exec path stdin (.args (attachArgs c verb {})), r⟩ : Event)] := by
      intro f hf; simp [Trace.finds, Event.find?] at hf
    have e3 : AllFound [(⟨.find p.network.type c.path, (.ok path : Except GoErr Bytes)⟩ : Event)] := allFound_find.2 ⟨_, rfl⟩
    have k1 := (allFound_append (a := [⟨.find p.network.type c.path, (.ok path : Except GoErr Bytes)⟩])
      (b := ⟨.exec path stdin (.args (attachArgs c verb {})), r⟩ :: tr)).trans
        (and_congr_right fun _ => allFound_append (a := [⟨.exec path stdin (.args (attachArgs c verb {})), r⟩]) (b := tr))
    have k2 := (allExited_append (a := [⟨.find p.network.type c.path, (.ok path : Except GoErr Bytes)⟩])
      (b := ⟨.exec path stdin (.args (attachArgs c verb {})), r⟩ :: tr)).trans
        (and_congr_right fun _ => allExited_append (a := [⟨.exec path stdin (.args (attachArgs c verb {})), r⟩]) (b := tr))
    have k3 := allExited_exec (b := path) (s := stdin) (a := .args (attachArgs c verb {})) (r := r)
    have k : (AllFound ([⟨.find p.network.type c.path, (.ok path : Except GoErr Bytes)⟩] ++
          ⟨.exec path stdin (.args (attachArgs c verb {})), r⟩ :: tr) ∧
        AllExited ([⟨.find p.network.type c.path, (.ok path : Except GoErr Bytes)⟩] ++
          ⟨.exec path stdin (.args (attachArgs c verb {})), r⟩ :: tr)) ↔ (∃ out, r = .ok out) ∧ gs.filterMap id = [] := by
      rw [k1, k2, k3, ih]
      exact ⟨fun ⟨⟨_, _, x⟩, _, y, z⟩ => ⟨y, x, z⟩, fun ⟨y, x, z⟩ => ⟨⟨e3, e2, x⟩, e1, y, z⟩⟩
    refine Iff.trans ?_ k.symm
    cases r with
    | ok out => simp [failureOf]
    | error g => simp [failureOf]

/-- C63: GC of a list with a readable version succeeds exactly if every plugin searched for was found, and every plugin executed
exited successfully, for the removal of stale attachments and for GC itself. (It crashes only as C24 and C50 describe.) -/
theorem c63_gc (c : CNIConfig) (list : NetConfList) (valid : Option (List GCAttachment)) (hs : ∀ p ∈ list.plugins, Sound p)
    (hv : ∃ p, Reads list.cniVersion p) (fs fs' : FS) (tr : Trace) (o : Out Unit)
    (h : Runs flt (c.gcNetworkList list valid) fs tr fs' o) (hnp : o ≠ .panic) : o = .ok () ↔ AllFound tr ∧ AllExited tr := by
  cases hd : list.disableGC with
  | true =>
    unfold CNIConfig.gcNetworkList at h
    rw [hd, if_pos rfl] at h
    obtain ⟨rfl, rfl, rfl⟩ := runs_done.1 h
    simp [allFound_nil, allExited_nil]
  | false =>
    obtain ⟨tr0, o0, h0, hx⟩ := gcNetworkList_runs hd h
    obtain ⟨f1, f2, -⟩ := fileOps_found getCachedAttachments_files h0
    obtain ⟨-, hne, -, hmem⟩ := getCachedAttachments_mem h0
    rcases hx with ⟨-, rfl, rfl, rfl⟩ | ⟨atts, l, trd, os, fs1, rfl, hdl, hx⟩
    · simp [f1, f2]
    · rcases hx with ⟨-, -, -, -, rfl⟩ | ⟨rfl, hnp', trg, es, rfl, hw, hx⟩
      · exact absurd rfl hnp
      · have hok : ∀ a ∈ atts.filter (isStale list.name valid), (rtOf a).OK := by
          intro a ha
          obtain ⟨n, -, hn⟩ := hmem atts rfl a (List.mem_filter.1 ha).1
          exact (attachmentIn_ok hn).1
        have hp := dels_progress hdl hok hs hv hnp'
        have jn : ∀ {es : List GoErr}, joinErrs es = .ok () ↔ es = [] := by
          intro es; unfold joinErrs; split <;> simp_all
        rw [allFound_append, allExited_append, allFound_append, allExited_append]
        rcases hx with ⟨-, rfl, rfl, rfl⟩ | ⟨-, o1, hg, rfl⟩
        · rw [jn, hw.nil_iff, hp]
          simp [f1, f2, allFound_nil, allExited_nil]
        · obtain ⟨rfl, gs, es2, ha, rfl, hw2⟩ := gcLoop_runs hs hg
          show joinErrs (es ++ es2) = .ok () ↔ _
          rw [jn, (hw.append hw2).nil_iff, List.append_eq_nil_iff, hp, asks_progress ha]
          simp only [f1, f2, true_and]
          exact ⟨fun ⟨⟨a, b⟩, d, e⟩ => ⟨⟨a, d⟩, b, e⟩, fun ⟨⟨a, d⟩, b, e⟩ => ⟨⟨a, b⟩, d, e⟩⟩

namespace Example

/-- The plugins of the examples meet the hypotheses of C63, and so do their arguments. -/
theorem list_sound : ∀ p ∈ list.plugins, Sound p := list11_sound

/-- A plugin that prints something that is not a result. -/
def garbled (p i : Bytes) (a : PArgs) : Except GoErr Bytes := if p = b!"/bin/b" then .ok b!"[]" else good p i a

/-- ADD in the examples: it succeeds with good plugins, so every plugin was found and returned a result; it fails with a
plugin that fails or prints garbage, so not every plugin returned a result. -/
example : (∃ tr fs' o, Runs false (cfg.addNetworkList list rt) noFiles tr fs' o ∧ (∃ x, o = .ok x) ∧ AllFound tr ∧ AllReturned tr) ∧
    (∃ tr fs' o, Runs false (cfg.addNetworkList list rt) noFiles tr fs' o ∧ (∀ x, o ≠ .ok x) ∧ ¬ (AllFound tr ∧ AllReturned tr)) ∧
    (∃ tr fs' o, Runs false (cfg.addNetworkList list rt) noFiles tr fs' o ∧ tr.execs.length = 2 ∧ AllExited tr ∧ (∀ x, o ≠ .ok x)) := by
  have hv : ValidName rt.containerID ∧ ValidName list.name ∧ ValidIfName rt.ifName := by
    obtain ⟨tr, fs', o, h, hx⟩ := Prog.interp_exists (flt := false) (p := cfg.addNetworkList list rt) (fs := noFiles) (find := find) (exec := good)
      (b := true) (fun _ _ o => o.toOption.isSome) (by decide +kernel)
    exact ((c63_add_list cfg list rt rt_ok list_sound (by decide) _ _ _ _ h).1 (by cases o <;> simp_all [Out.toOption])).1
  refine ⟨?_, ?_, ?_⟩
  · obtain ⟨tr, fs', o, h, hx⟩ := Prog.interp_exists (flt := false) (p := cfg.addNetworkList list rt) (fs := noFiles) (find := find) (exec := good)
      (b := true) (fun _ _ o => o.toOption.isSome) (by decide +kernel)
    have ho : ∃ x, o = .ok x := by cases o <;> simp_all [Out.toOption]
    have := (c63_add_list cfg list rt rt_ok list_sound (by decide) _ _ _ _ h).1 ho
    exact ⟨tr, fs', o, h, ho, this.2⟩
  · obtain ⟨tr, fs', o, h, hx⟩ := Prog.interp_exists (flt := false) (p := cfg.addNetworkList list rt) (fs := noFiles) (find := find) (exec := failB)
      (b := false) (fun _ _ o => o.toOption.isSome) (by decide +kernel)
    have ho : ∀ x, o ≠ .ok x := by cases o <;> simp_all [Out.toOption]
    refine ⟨tr, fs', o, h, ho, fun hn => ?_⟩
    obtain ⟨x, hx⟩ := (c63_add_list cfg list rt rt_ok list_sound (by decide) _ _ _ _ h).2 ⟨hv, hn⟩
    exact ho x hx
  · obtain ⟨tr, fs', o, h, hx⟩ := Prog.interp_exists (flt := false) (p := cfg.addNetworkList list rt) (fs := noFiles) (find := find) (exec := garbled)
      (b := (2, true, false)) (fun tr _ o => (tr.execs.length, tr.execs.all (fun e => e.resp.toOption.isSome), o.toOption.isSome)) (by decide +kernel)
    simp only [Prod.mk.injEq] at hx
    refine ⟨tr, fs', o, h, hx.1, fun e he => ?_, by cases o <;> simp_all [Out.toOption]⟩
    have := List.all_eq_true.1 hx.2.1 e he
    unfold Succeeded
    cases hr : e.resp <;> simp_all [Except.toOption]

/-- DEL, CHECK and STATUS in the examples, succeeding and failing. -/
example : (∃ tr fs' o, Runs false (cfg.delNetworkList list rt) oneFile tr fs' o ∧ o = .ok () ∧ AllFound tr ∧ AllExited tr) ∧
    (∃ tr fs' o, Runs false (cfg.delNetworkList list rt) oneFile tr fs' o ∧ o.toOption = none ∧ ¬ (AllFound tr ∧ AllExited tr)) ∧
    (∃ tr fs' o, Runs false (cfg.checkNetworkList list rt) oneFile tr fs' o ∧ o = .ok () ∧ AllFound tr ∧ AllExited tr) ∧
    (∃ tr fs' o, Runs false (cfg.getStatusNetworkList list11) noFiles tr fs' o ∧ o.toOption = none ∧ ¬ (AllFound tr ∧ AllExited tr)) := by
  refine ⟨?_, ?_, ?_, ?_⟩
  · obtain ⟨tr, fs', o, h, hx⟩ := Prog.interp_exists (flt := false) (p := cfg.delNetworkList list rt) (fs := oneFile) (find := find) (exec := good)
      (b := true) (fun _ _ o => o.toOption.isSome) (by decide +kernel)
    have ho : o = .ok () := by cases o <;> simp_all [Out.toOption]
    have := (c63_del_list cfg list rt rt_ok list_sound _ _ _ _ h (by rw [ho]; intro h; cases h)).1 ho
    exact ⟨tr, fs', o, h, ho, this.2⟩
  · obtain ⟨tr, fs', o, h, hx⟩ := Prog.interp_exists (flt := false) (p := cfg.delNetworkList list rt) (fs := oneFile) (find := find) (exec := failA)
      (b := (false, true)) (fun _ _ o => (o.toOption.isSome, match o with | .panic => false | _ => true)) (by decide +kernel)
    simp only [Prod.mk.injEq] at hx
    have hnp : o ≠ .panic := by rintro rfl; simp at hx
    refine ⟨tr, fs', o, h, by cases o <;> simp_all [Out.toOption], fun hn => ?_⟩
    have := (c63_del_list cfg list rt rt_ok list_sound _ _ _ _ h hnp).2
      ⟨⟨(1, 0, 0), (parseVersion_iff _ _).1 (by decide)⟩, hn⟩
    rw [this] at hx
    simp [Out.toOption] at hx
  · obtain ⟨tr, fs', o, h, hx⟩ := Prog.interp_exists (flt := false) (p := cfg.checkNetworkList list rt) (fs := oneFile) (find := find) (exec := good)
      (b := true) (fun _ _ o => o.toOption.isSome) (by decide +kernel)
    have ho : o = .ok () := by cases o <;> simp_all [Out.toOption]
    rcases ((c63_check_list cfg list rt rt_ok list_sound _ _ _ _ h).1 ho).2 with hd | hd
    · cases hd
    · exact ⟨tr, fs', o, h, ho, hd.2⟩
  · obtain ⟨tr, fs', o, h, hx⟩ := Prog.interp_exists (flt := false) (p := cfg.getStatusNetworkList list11) (fs := noFiles) (find := find) (exec := failB)
      (b := false) (fun _ _ o => o.toOption.isSome) (by decide +kernel)
    refine ⟨tr, fs', o, h, by cases o <;> simp_all [Out.toOption], fun hn => ?_⟩
    rw [(c63_status cfg list11 list11_sound _ _ _ _ h).2 hn] at hx
    simp [Out.toOption] at hx

/-- GC in the examples: the stale attachment is removed and the plugins are asked, all of which succeeds. -/
example : ∃ tr fs' o, Runs false (cfg.gcNetworkList list11 (some [⟨b!"c2", b!"eth0"⟩])) oneFile tr fs' o ∧ o = .ok () ∧
    AllFound tr ∧ AllExited tr := by
  obtain ⟨tr, fs', o, h, hx⟩ := Prog.afterDir_exists (flt := false) (find := find) (exec := good) (Example.lists (some entry))
    (fun _ _ o => o.toOption.isSome) (b := true) (p := cfg.gcNetworkList list11 (some [⟨b!"c2", b!"eth0"⟩])) (by decide +kernel) (fun _ _ _ _ => rfl)
  have ho : o = .ok () := by cases o <;> simp_all [Out.toOption]
  exact ⟨tr, fs', o, h, ho, (c63_gc cfg list11 _ list11_sound ⟨(1, 1, 0), (parseVersion_iff _ _).1 (by decide)⟩ _ _ _ _ h
    (by rw [ho]; intro h; cases h)).1 ho⟩

/-- A plugin that reports a route without a destination. -/
def routeless (_p _i : Bytes) (_a : PArgs) : Except GoErr Bytes := .ok b!"{\"cniVersion\":\"1.0.0\",\"routes\":[{}]}"

/-- C63: "a result that can be read" is not "a result that can be handed on": a route without a destination is accepted, handed to the
next plugin and cached as the text `<nil>`, which nothing accepts. ADD succeeds; CHECK then fails without executing a plugin. -/
theorem _root_.Verif.c63_unreadable_cached : ∃ tr fs' o, Runs false ((cfg.addNetworkList list rt).bind fun _ =>
      (cfg.checkNetworkList list rt).attempt) noFiles tr fs' o ∧
    (tr.execs.map (fun e => e.stdin), o.toOption.map (fun e : Except GoErr Unit => e.toOption.isSome)) =
      ([b!"{\"cniVersion\":\"1.0.0\",\"name\":\"net\",\"type\":\"a\",\"x\":1}",
        b!"{\"cniVersion\":\"1.0.0\",\"name\":\"net\",\"prevResult\":{\"cniVersion\":\"1.0.0\",\"routes\":[{\"dst\":\"\\u003cnil\\u003e\"}]},\"type\":\"b\"}"],
       some false) :=
  Prog.interp_exists (find := find) (exec := routeless) (fun tr _ o => (tr.execs.map (fun e => e.stdin),
    o.toOption.map (fun e : Except GoErr Unit => e.toOption.isSome))) (by decide +kernel)

end Example

end Verif
