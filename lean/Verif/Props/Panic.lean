/- When the runtime can crash (C24, C50). -/
import Verif.Props.Gc
import Verif.Spec.Panic
import Verif.Props.Lookup

namespace Verif

open Spec

variable {flt : Bool} {fs fs' : FS} {tr : Trace} {α β : Type}

/-! ### parts that cannot crash -/

/-- Every way the program can end is not a crash. -/
structure Safe (p : Prog α) : Prop where
  ends : p.Ends (· ≠ .panic)

theorem Safe.bind {p : Prog α} {f : α → Prog β} (hp : Safe p) (hf : ∀ a, Safe (f a)) : Safe (p.bind f) :=
  ⟨Prog.Ends.bind hp.ends (fun a _ => (hf a).ends) (fun _ _ h => by cases h) (fun h => absurd rfl h)⟩

theorem Safe.mapErr {p : Prog α} {f : GoErr → GoErr} (hp : Safe p) : Safe (p.mapErr f) :=
  ⟨Prog.Ends.mapErr hp.ends fun o h => by cases o <;> simp_all [mapErrOut]⟩

theorem Safe.attempt {p : Prog α} (hp : Safe p) : Safe p.attempt :=
  ⟨Prog.Ends.attempt hp.ends fun o h => by cases o <;> simp_all [attemptOut]⟩

theorem safe_lift {o : Out α} (h : o ≠ .panic) : Safe (Prog.lift o) := ⟨h⟩
theorem safe_done {o : Out α} (h : o ≠ .panic) : Safe (.done o : Prog α) := ⟨h⟩
theorem safe_op {a : Act} {k : a.Resp → Prog α} (h : ∀ r, Safe (k r)) : Safe (.op a k) := ⟨fun r => (h r).ends⟩

theorem safe_findPlugin (type : Bytes) (paths : List Bytes) : Safe (findPlugin type paths) := by
  refine safe_op fun r => ?_
  cases (r : Except GoErr Bytes) with
  | ok p => exact safe_done (by simp)
  | error e => exact safe_done (by simp)

theorem decodeVersion_ne_panic (b : Bytes) : decodeVersion b ≠ .panic := by
  unfold decodeVersion
  repeat' split
  all_goals simp

theorem createFromBytes_ne_panic (b : Bytes) : createFromBytes b ≠ .panic := by
  unfold createFromBytes
  cases h : decodeVersion b with
  | ok v => exact create_ne_panic v b
  | err e => simp
  | panic => exact absurd h (decodeVersion_ne_panic b)

theorem fixup_ne_panic (a b : Bytes) : fixupResultVersion a b ≠ .panic := by
  unfold fixupResultVersion
  cases h : decodeVersion a with
  | ok v =>
    simp only [Out.bind_ok]
    repeat' split
    all_goals simp
  | err e => simp
  | panic => exact absurd h (decodeVersion_ne_panic a)

theorem resultOfOutput_ne_panic (a b : Bytes) : resultOfOutput a b ≠ .panic := by
  unfold resultOfOutput
  cases h : fixupResultVersion a b with
  | ok x => exact create_ne_panic x.1 x.2
  | err e => simp
  | panic => exact absurd h (fixup_ne_panic a b)

theorem safe_execWithResult (path conf : Bytes) (args : PArgs) : Safe (execWithResult path conf args) := by
  refine safe_op fun r => ?_
  cases (r : Except GoErr Bytes) with
  | ok out => exact safe_done (resultOfOutput_ne_panic conf out)
  | error e => exact safe_done (by simp)

theorem safe_execWithoutResult (path conf : Bytes) (args : PArgs) : Safe (execWithoutResult path conf args) := by
  refine safe_op fun r => ?_
  cases (r : Except GoErr Bytes) with
  | ok out => exact safe_done (by simp)
  | error e => exact safe_done (by simp)

theorem injectConf_ne_panic {p : PluginConfig} (hp : IsObject p) (kvs : List (Bytes × Option Json)) : injectConf p kvs ≠ .panic := by
  obtain ⟨ms, hms⟩ := hp
  cases hm : Json.toAnyMembers ms with
  | none => simp [injectConf, hms, rawMap_obj, hm]
  | some m =>
    by_cases hg : AllGood kvs
    · rw [injectConf_obj hms hm hg]
      exact pluginConfFromBytes_no_panic _
    · obtain ⟨e, he⟩ := injectLoop_bad (m := GoMap.ofList m) hg
      simp [injectConf, hms, rawMap_obj, hm, he]

theorem buildOneConfig_ne_panic {p : PluginConfig} (hp : IsObject p) (name ver : Bytes) (prev : Option Result) (rt : RuntimeConf) :
    buildOneConfig name ver p prev rt ≠ .panic := by
  unfold buildOneConfig
  cases hP : prevJson prev with
  | none => simp
  | some P =>
    simp only [Out.ofOption_some, Out.bind_ok]
    have hnum : ∀ j, P = some j → j.NumsOK := by
      intro j hj
      subst hj
      cases prev with
      | none => simp [prevJson] at hP
      | some r =>
        simp only [prevJson, Option.map_eq_some_iff, Option.some.injEq, exists_eq_right] at hP
        exact Result.json_numsOK hP
    cases hi : injectConf p (baseValues name ver P) with
    | err e => simp
    | panic => exact absurd hi (injectConf_ne_panic hp _)
    | ok p1 =>
      obtain ⟨ms, m, -, -, -, -, h5, -⟩ := injectConf_ok (baseValues_ok hnum) hi
      simp only [Out.bind_ok]
      unfold injectRuntimeConfig
      simp only
      split
      · simp
      · exact injectConf_ne_panic ⟨_, h5⟩ _

theorem validateAdd_ne_panic (name : Bytes) (rt : RuntimeConf) : validateAdd name rt ≠ .panic := by
  unfold validateAdd
  repeat' split
  all_goals simp

theorem safe_cacheAdd (c : CNIConfig) (result : Option Result) (config name : Bytes) (rt : RuntimeConf) :
    Safe (c.cacheAdd result config name rt) := by
  unfold CNIConfig.cacheAdd
  split
  · exact safe_done (by simp)
  · split
    · refine safe_op fun r1 => ?_
      cases (r1 : Bool) with
      | false => exact safe_done (by simp)
      | true =>
        refine safe_op fun r2 => ?_
        cases (r2 : Bool) with
        | false => exact safe_done (by simp)
        | true => exact safe_done (by simp)
    · exact safe_done (by simp)
    · rename_i h
      exact absurd h (cachePath_ne_panic _ _ _)

theorem safe_cacheDel (c : CNIConfig) (name : Bytes) (rt : RuntimeConf) : Safe (c.cacheDel name rt) := by
  unfold CNIConfig.cacheDel
  split
  · refine safe_op fun r => ?_
    cases (r : Bool) with
    | false => exact safe_done (by simp)
    | true => exact safe_done (by simp)
  · exact safe_done (by simp)

theorem safe_addNetwork1 {p : PluginConfig} (hp : IsObject p) (c : CNIConfig) (name ver : Bytes) (prev : Option Result) (rt : RuntimeConf) :
    Safe (c.addNetwork1 name ver p prev rt) := by
  unfold CNIConfig.addNetwork1
  simp only [prog_bind_eq]
  exact (safe_findPlugin _ _).bind fun _ => (safe_lift (validateAdd_ne_panic _ _)).bind fun _ =>
    (safe_lift (buildOneConfig_ne_panic hp _ _ _ _)).bind fun _ => safe_execWithResult ..

theorem safe_runNetwork1 {p : PluginConfig} (hp : IsObject p) (c : CNIConfig) (verb name ver : Bytes) (prev : Option Result)
    (rt : RuntimeConf) : Safe (c.runNetwork1 verb name ver p prev rt) := by
  unfold CNIConfig.runNetwork1
  simp only [prog_bind_eq]
  exact (safe_findPlugin _ _).bind fun _ => (safe_lift (buildOneConfig_ne_panic hp _ _ _ _)).bind fun _ => safe_execWithoutResult ..

theorem safe_addLoop {ps : List PluginConfig} (hp : ∀ p ∈ ps, IsObject p) (c : CNIConfig) (name ver : Bytes) (rt : RuntimeConf) :
    ∀ prev, Safe (c.addLoop name ver rt ps prev) := by
  induction ps with
  | nil => exact fun prev => safe_done (by simp)
  | cons p ps ih =>
    intro prev
    unfold CNIConfig.addLoop
    exact (safe_addNetwork1 (hp p (by simp)) ..).mapErr.bind fun r => ih (fun q hq => hp q (by simp [hq])) _

theorem safe_delLoop {ps : List PluginConfig} (hp : ∀ p ∈ ps, IsObject p) (c : CNIConfig) (name ver : Bytes) (prev : Option Result)
    (rt : RuntimeConf) : Safe (c.delLoop name ver prev rt ps) := by
  induction ps with
  | nil => exact safe_done (by simp)
  | cons p ps ih =>
    unfold CNIConfig.delLoop
    exact (safe_runNetwork1 (hp p (by simp)) ..).mapErr.bind fun _ => ih fun q hq => hp q (by simp [hq])

theorem safe_checkLoop {ps : List PluginConfig} (hp : ∀ p ∈ ps, IsObject p) (c : CNIConfig) (name ver : Bytes) (prev : Option Result)
    (rt : RuntimeConf) : Safe (c.checkLoop name ver prev rt ps) := by
  induction ps with
  | nil => exact safe_done (by simp)
  | cons p ps ih =>
    unfold CNIConfig.checkLoop
    exact (safe_runNetwork1 (hp p (by simp)) ..).bind fun _ => ih fun q hq => hp q (by simp [hq])

theorem wrapErr_ne_panic {o : Out α} {b : Bytes} (h : o ≠ .panic) : o.wrapErr b ≠ .panic := by
  cases o with
  | ok a => simp [Out.wrapErr]
  | err e => simp [Out.wrapErr]
  | panic => exact absurd rfl h

theorem safe_bareNetwork1 (c : CNIConfig) (verb : Bytes) (p : PluginConfig) : Safe (c.bareNetwork1 verb p) := by
  unfold CNIConfig.bareNetwork1
  simp only [prog_bind_eq]
  exact (safe_findPlugin _ _).bind fun _ => safe_execWithoutResult ..

theorem safe_statusLoop {ps : List PluginConfig} (hp : ∀ p ∈ ps, IsObject p) (c : CNIConfig) (name ver : Bytes) :
    Safe (c.statusLoop name ver ps) := by
  induction ps with
  | nil => exact safe_done (by simp)
  | cons p ps ih =>
    unfold CNIConfig.statusLoop
    exact (safe_lift (wrapErr_ne_panic (injectConf_ne_panic (hp p (by simp)) _))).bind fun _ =>
      (safe_bareNetwork1 ..).bind fun _ => ih fun q hq => hp q (by simp [hq])

theorem Safe.not_panic {p : Prog α} (hp : Safe p) (h : Runs flt p fs tr fs' .panic) : False := Prog.Ends.runs hp.ends h rfl

/-- A crash of a sequence is a crash of one of its parts. -/
theorem panic_bind {p : Prog α} {f : α → Prog β} (h : Runs flt (p.bind f) fs tr fs' .panic) :
    (∃ tr1 fs1, Runs flt p fs tr1 fs1 .panic) ∨ ∃ a tr1 fs1 tr2, Runs flt p fs tr1 fs1 (.ok a) ∧ Runs flt (f a) fs1 tr2 fs' .panic := by
  obtain ⟨tr1, tr2, fs1, o1, -, h1, h2⟩ := runs_bind.1 h
  cases o1 with
  | ok a => exact .inr ⟨a, tr1, fs1, tr2, h1, h2⟩
  | err e => exact absurd h2.2.2 (by simp)
  | panic => exact .inl ⟨tr1, fs1, h1⟩

theorem panic_mapErr {p : Prog α} {f : GoErr → GoErr} (h : Runs flt (p.mapErr f) fs tr fs' .panic) : Runs flt p fs tr fs' .panic := by
  obtain ⟨o, h, he⟩ := runs_mapErr.1 h
  cases o with
  | ok a => cases he
  | err e => cases he
  | panic => exact h

theorem panic_attempt {p : Prog α} (h : Runs flt p.attempt fs tr fs' .panic) : Runs flt p fs tr fs' .panic := by
  obtain ⟨o, h, he⟩ := runs_attempt.1 h
  cases o with
  | ok a => cases he
  | err e => cases he
  | panic => exact h

/-! ### reading cached results -/

theorem getAsVersion_panic {r : Result} {v : Bytes} (ht : WellTyped r) (h : r.getAsVersion v = .panic) : ¬ NoNull r := by
  intro hn
  cases r with
  | v020 x =>
    simp only [Result.getAsVersion] at h
    split at h
    · rename_i he
      simp [WellTyped, he, old020] at ht
    · exact c31_no_panic _ ht hn _ h
  | v040 x =>
    simp only [Result.getAsVersion] at h
    split at h
    · rename_i he
      simp [WellTyped, he, mid040] at ht
    · exact c31_no_panic _ ht hn _ h
  | v100 x =>
    simp only [Result.getAsVersion] at h
    split at h
    · rename_i he
      simp [WellTyped, he, new100] at ht
    · exact c31_no_panic _ ht hn _ h

theorem createFromBytes_wellTyped {b : Bytes} {r : Result} (h : createFromBytes b = .ok r) : WellTyped r := by
  unfold createFromBytes at h
  obtain ⟨v, -, h⟩ := Out.bind_eq_ok h
  exact (create_wellTyped h).1

theorem loadResult_panic {b ver : Bytes} (h : loadResult b ver = .panic) : ∃ r, createFromBytes b = .ok r ∧ ¬ NoNull r := by
  unfold loadResult at h
  cases hc : createFromBytes b with
  | err e => rw [hc] at h; simp at h
  | panic => exact absurd hc (createFromBytes_ne_panic b)
  | ok r =>
    refine ⟨r, rfl, ?_⟩
    rw [hc, Out.bind_ok] at h
    cases hg : r.getAsVersion ver with
    | ok x => rw [hg] at h; simp [Out.wrapErr] at h
    | err e => rw [hg] at h; simp [Out.wrapErr] at h
    | panic => exact getAsVersion_panic (createFromBytes_wellTyped hc) hg

theorem currentFormat_iff {b : Bytes} : (∀ info, currentFormat b = some info → IsEntry b info) ∧
    (currentFormat b = none → ¬ ∃ info, IsEntry b info) := by
  unfold currentFormat IsEntry
  cases readCachedInfo b with
  | none => simp
  | some i =>
    simp only
    split
    · rename_i h
      exact ⟨fun info h' => by cases h'; exact ⟨rfl, h⟩, fun h' => by cases h'⟩
    · rename_i h
      exact ⟨fun info h' => (by cases h'), fun _ ⟨info, h1, h2⟩ => by cases h1; exact h h2⟩

theorem cachedResultOf_panic {b ver : Bytes} (h : cachedResultOf ver (some b) = .panic) : HoldsNull b := by
  unfold cachedResultOf at h
  simp only at h
  split at h
  · rename_i hn
    obtain ⟨r, h1, h2⟩ := loadResult_panic h
    exact ⟨r, .inr ⟨currentFormat_iff.2 hn, h1⟩, h2⟩
  · rename_i info hi
    obtain ⟨r, h1, h2⟩ := loadResult_panic h
    exact ⟨r, .inl ⟨info, currentFormat_iff.1 _ hi, h1⟩, h2⟩

theorem getCachedResult_panic {c : CNIConfig} {name ver : Bytes} {rt : RuntimeConf}
    (h : Runs flt (c.getCachedResult name ver rt) fs tr fs' .panic) :
    ∃ p b, c.cachePath name rt = .ok p ∧ fs p = some b ∧ HoldsNull b := by
  obtain ⟨-, -, -, h1, h2⟩ := runs_getCachedResult h
  cases hp : c.cachePath name rt with
  | ok p =>
    rcases h1 p hp with he | he
    · cases hb : fs p with
      | none => rw [hb] at he; cases he
      | some b => rw [hb] at he; exact ⟨p, b, rfl, hb, cachedResultOf_panic he.symm⟩
    · cases he
  | err e =>
    obtain ⟨g, hg⟩ := h2 (by rw [hp]; simp)
    cases hg
  | panic => exact absurd hp (cachePath_ne_panic _ _ _)

theorem gte_ne_panic (a b : Bytes) : gte a b ≠ .panic := by
  intro h
  unfold gte at h
  repeat' split at h
  all_goals cases h

/-! ### C50 -/

/-- ADD does not crash, whatever the plugins print. -/
theorem c50_add (c : CNIConfig) (list : NetConfList) (rt : RuntimeConf) (hp : ∀ p ∈ list.plugins, IsObject p) (fs fs' : FS) (tr : Trace)
    (o : Out (Option Result)) (h : Runs flt (c.addNetworkList list rt) fs tr fs' o) : o ≠ .panic := by
  refine Prog.Ends.runs (Q := (· ≠ .panic)) (Safe.ends ?_) h
  unfold CNIConfig.addNetworkList
  simp only [prog_bind_eq]
  exact (safe_addLoop hp ..).bind fun _ => (safe_cacheAdd ..).mapErr.bind fun _ => safe_done (by simp)

theorem c50_add_network (c : CNIConfig) (net : PluginConfig) (rt : RuntimeConf) (hp : IsObject net) (fs fs' : FS) (tr : Trace)
    (o : Out Result) (h : Runs flt (c.addNetwork net rt) fs tr fs' o) : o ≠ .panic := by
  refine Prog.Ends.runs (Q := (· ≠ .panic)) (Safe.ends ?_) h
  unfold CNIConfig.addNetwork
  simp only [prog_bind_eq]
  exact (safe_addNetwork1 hp ..).bind fun _ => (safe_cacheAdd ..).mapErr.bind fun _ => safe_done (by simp)

/-- DEL crashes only if the cache file of the attachment holds a result with a null entry. -/
theorem c50_del (c : CNIConfig) (list : NetConfList) (rt : RuntimeConf) (hp : ∀ p ∈ list.plugins, IsObject p) (fs fs' : FS) (tr : Trace)
    (h : Runs flt (c.delNetworkList list rt) fs tr fs' .panic) :
    ∃ p b, c.cachePath list.name rt = .ok p ∧ fs p = some b ∧ HoldsNull b := by
  unfold CNIConfig.delNetworkList at h
  have hrest : ∀ prev, Safe ((c.delLoop list.name list.cniVersion prev rt list.plugins.reverse).bind
      fun _ => (c.cacheDel list.name rt).attempt.bind fun _ => .done (.ok ())) := fun prev =>
    (safe_delLoop (fun p h => hp p (List.mem_reverse.1 h)) ..).bind fun _ =>
      (safe_cacheDel ..).attempt.bind fun _ => safe_done (by simp)
  simp only at h
  split at h
  · exact absurd (runs_done.1 h).2.2 (by simp)
  · rename_i hg; exact absurd hg (gte_ne_panic _ _)
  · exact ((hrest none).not_panic h).elim
  · rcases panic_bind h with ⟨tr1, fs1, h1⟩ | ⟨prev, tr1, fs1, tr2, -, h2⟩
    · unfold CNIConfig.delPrev at h1
      rcases panic_bind h1 with ⟨tr1, fs1, h1⟩ | ⟨r, tr1, fs1, tr2, -, h2⟩
      · exact getCachedResult_panic (panic_attempt h1)
      · cases r with
        | ok prev => exact absurd (runs_done.1 h2).2.2 (by simp)
        | error e =>
          exact (((safe_cacheDel c list.name rt).attempt.bind fun _ => safe_done (o := .ok none) (by simp)).not_panic h2).elim
    · exact ((hrest prev).not_panic h2).elim

theorem c50_del_network (c : CNIConfig) (net : PluginConfig) (rt : RuntimeConf) (hp : IsObject net) (fs fs' : FS) (tr : Trace)
    (h : Runs flt (c.delNetwork net rt) fs tr fs' .panic) :
    ∃ p b, c.cachePath net.network.name rt = .ok p ∧ fs p = some b ∧ HoldsNull b := by
  unfold CNIConfig.delNetwork at h
  have hrest : ∀ prev, Safe ((c.runNetwork1 b!"DEL" net.network.name net.network.cniVersion net prev rt).bind
      fun _ => (c.cacheDel net.network.name rt).attempt.bind fun _ => .done (.ok ())) := fun prev =>
    (safe_runNetwork1 hp ..).bind fun _ => (safe_cacheDel ..).attempt.bind fun _ => safe_done (by simp)
  simp only at h
  split at h
  · exact absurd (runs_done.1 h).2.2 (by simp)
  · rename_i hg; exact absurd hg (gte_ne_panic _ _)
  · exact ((hrest none).not_panic h).elim
  · rcases panic_bind h with ⟨tr1, fs1, h1⟩ | ⟨prev, tr1, fs1, tr2, -, h2⟩
    · exact getCachedResult_panic (panic_mapErr h1)
    · exact ((hrest prev).not_panic h2).elim

/-- CHECK likewise. -/
theorem c50_check (c : CNIConfig) (list : NetConfList) (rt : RuntimeConf) (hp : ∀ p ∈ list.plugins, IsObject p) (fs fs' : FS) (tr : Trace)
    (h : Runs flt (c.checkNetworkList list rt) fs tr fs' .panic) :
    ∃ p b, c.cachePath list.name rt = .ok p ∧ fs p = some b ∧ HoldsNull b := by
  unfold CNIConfig.checkNetworkList at h
  split at h
  · exact absurd (runs_done.1 h).2.2 (by simp)
  · rename_i hg; exact absurd hg (gte_ne_panic _ _)
  · exact absurd (runs_done.1 h).2.2 (by simp)
  · split at h
    · exact absurd (runs_done.1 h).2.2 (by simp)
    · rcases panic_bind h with ⟨tr1, fs1, h1⟩ | ⟨prev, tr1, fs1, tr2, -, h2⟩
      · exact getCachedResult_panic (panic_mapErr h1)
      · exact ((safe_checkLoop hp ..).not_panic h2).elim

theorem c50_check_network (c : CNIConfig) (net : PluginConfig) (rt : RuntimeConf) (hp : IsObject net) (fs fs' : FS) (tr : Trace)
    (h : Runs flt (c.checkNetwork net rt) fs tr fs' .panic) :
    ∃ p b, c.cachePath net.network.name rt = .ok p ∧ fs p = some b ∧ HoldsNull b := by
  unfold CNIConfig.checkNetwork at h
  split at h
  · exact absurd (runs_done.1 h).2.2 (by simp)
  · rename_i hg; exact absurd hg (gte_ne_panic _ _)
  · exact absurd (runs_done.1 h).2.2 (by simp)
  · rcases panic_bind h with ⟨tr1, fs1, h1⟩ | ⟨prev, tr1, fs1, tr2, -, h2⟩
    · exact getCachedResult_panic (panic_mapErr h1)
    · exact ((safe_runNetwork1 hp ..).not_panic h2).elim

/-- STATUS does not crash. -/
theorem c50_status (c : CNIConfig) (list : NetConfList) (hp : ∀ p ∈ list.plugins, IsObject p) (fs fs' : FS) (tr : Trace)
    (o : Out Unit) (h : Runs flt (c.getStatusNetworkList list) fs tr fs' o) : o ≠ .panic := by
  refine Prog.Ends.runs (Q := (· ≠ .panic)) (Safe.ends ?_) h
  unfold CNIConfig.getStatusNetworkList
  split
  · exact safe_statusLoop hp ..
  · exact safe_done (by simp)

/-- Sound configurations are objects. -/
theorem Sound_isObject {p : PluginConfig} (h : Sound p) : IsObject p := by
  obtain ⟨ms, _, _, h, _⟩ := h
  exact ⟨ms, h⟩

theorem dels_files {c : CNIConfig} {list : NetConfList} {l : List Attachment} {os : List (Out Unit)}
    (h : Dels flt c list l fs tr fs' os) (hok : ∀ a ∈ l, (rtOf a).OK) (hp : ∀ p ∈ list.plugins, IsObject p) (hpan : .panic ∈ os) :
    ∃ a ∈ l, ∃ p b, c.cachePath list.name (rtOf a) = .ok p ∧ fs p = some b ∧ HoldsNull b := by
  induction h with
  | nil => simp at hpan
  | @cons a l fs fs1 fs2 tr1 tr2 o os h hl ih =>
    rw [List.mem_cons] at hpan
    rcases hpan with rfl | hpan
    · exact ⟨a, by simp, c50_del c list (rtOf a) hp _ _ _ h⟩
    · obtain ⟨a', ha', p, b, h1, h2, h3⟩ := ih (fun x hx => hok x (by simp [hx])) hpan
      refine ⟨a', by simp [ha'], p, b, h1, ?_, h3⟩
      rcases del_changes (hok a (by simp)) h with rfl | ⟨q, hq, rfl⟩
      · exact h2
      · by_cases he : p = q
        · subst he; rw [FS.set_same] at h2; cases h2
        · rwa [FS.set_other _ _ he] at h2

theorem safe_getCachedAttachments (c : CNIConfig) (cid : Bytes) : Safe (c.getCachedAttachments cid) := by
  unfold CNIConfig.getCachedAttachments
  refine safe_op fun r => ?_
  have hl : ∀ dir names, Safe (attachmentLoop dir cid names) := by
    intro dir names
    induction names with
    | nil => exact safe_done (by simp)
    | cons n ns ih =>
      unfold attachmentLoop
      split
      · exact ih
      · refine safe_op fun r => ?_
        exact ih.bind fun _ => safe_done (by simp)
  cases (r : Except Bool (List Bytes)) with
  | ok names => exact hl _ _
  | error b =>
    cases b
    · exact safe_done (by simp)
    · exact safe_done (by simp)

/-- GC crashes only if the cache file of some stale attachment holds a result with a null entry. -/
theorem c50_gc (c : CNIConfig) (list : NetConfList) (valid : Option (List GCAttachment)) (hp : ∀ p ∈ list.plugins, Sound p)
    (fs fs' : FS) (tr : Trace) (h : Runs flt (c.gcNetworkList list valid) fs tr fs' .panic) :
    ∃ a, InCache c fs a ∧ Stale list.name valid a ∧
      ∃ p b, c.cachePath list.name (rtOf a) = .ok p ∧ fs p = some b ∧ HoldsNull b := by
  cases hd : list.disableGC with
  | true => exact absurd (c22_disabled c list valid hd _ _ _ _ h).2.2 (by simp)
  | false =>
    obtain ⟨tr0, o0, h0, hx⟩ := gcNetworkList_runs hd h
    obtain ⟨-, -, -, hmem⟩ := getCachedAttachments_mem h0
    rcases hx with ⟨-, -, -, h⟩ | ⟨atts, l, trd, os, fs1, rfl, hdl, hx⟩
    · cases h
    · rcases hx with ⟨hpre, hlast, -⟩ | ⟨-, -, trg, es, -, -, ⟨-, -, -, he⟩ | ⟨-, o1, hg, he⟩⟩
      · have hst : ∀ a ∈ l, InCache c fs a ∧ Stale list.name valid a := by
          intro a ha
          have := hpre.subset ha
          rw [List.mem_filter, isStale_iff] at this
          exact ⟨hmem atts rfl a this.1, this.2⟩
        have hok : ∀ a ∈ l, (rtOf a).OK := by
          intro a ha
          obtain ⟨⟨n, -, hn⟩, -⟩ := hst a ha
          exact (attachmentIn_ok hn).1
        obtain ⟨a, ha, hh⟩ := dels_files hdl hok (fun p h => Sound_isObject (hp p h)) (List.mem_of_getLast? hlast)
        exact ⟨a, (hst a ha).1, (hst a ha).2, hh⟩
      · unfold joinErrs at he
        split at he <;> cases he
      · obtain ⟨-, gs, es2, -, rfl, -⟩ := gcLoop_runs hp hg
        change _ = joinErrs _ at he
        unfold joinErrs at he
        split at he <;> cases he

/-- Reading the cached result crashes only if it has a null entry; reading the cached configuration and listing the attachments
do not crash. -/
theorem c50_reads (c : CNIConfig) (list : NetConfList) (rt : RuntimeConf) (cid : Bytes) (fs fs' : FS) (tr : Trace) :
    (Runs flt (c.getNetworkListCachedResult list rt) fs tr fs' .panic →
      ∃ p b, c.cachePath list.name rt = .ok p ∧ fs p = some b ∧ HoldsNull b) ∧
    ¬ Runs flt (c.getNetworkListCachedConfig list rt) fs tr fs' .panic ∧ ¬ Runs flt (c.getCachedAttachments cid) fs tr fs' .panic := by
  refine ⟨getCachedResult_panic, fun h => ?_, (safe_getCachedAttachments c cid).not_panic⟩
  have hno : ∀ r, cachedConfigOf rt r ≠ .panic := by
    intro r
    unfold cachedConfigOf
    repeat' split
    all_goals simp
  obtain ⟨-, -, -, h1, h2⟩ := runs_getCachedConfig h
  cases hp : c.cachePath list.name rt with
  | ok p =>
    rcases h1 p hp with he | he
    · exact hno _ he.symm
    · cases he
  | err e => obtain ⟨g, hg⟩ := h2 (by rw [hp]; simp); cases hg
  | panic => exact absurd hp (cachePath_ne_panic _ _ _)

/-! ### C24 -/

/-- What is loaded from a list is sound. -/
theorem pluginLoads_sound {j : Json} {p : PluginConfig} (h : PluginLoads j p) : Sound p := by
  obtain ⟨ms, M, -, h2, h3, h4, h5⟩ := h
  have hany : ∀ kv ∈ M, kv.2.toAny = some kv.2 := by
    rintro ⟨k, w⟩ hkv
    obtain ⟨hk1, hk2⟩ := h3.others k (by simp)
    by_cases hn : NoMember ms k
    · exact absurd rfl (hk2 hn _ hkv)
    · have hv : ∃ v, LastMember ms k v := by
        simp only [noMember_iff, lastMember_iff] at hn ⊢
        exact Option.ne_none_iff_exists'.1 hn
      obtain ⟨v, hv⟩ := hv
      obtain ⟨w', hw', hm⟩ := hk1 v hv
      have : w = w' := lastMember_unique (lastMember_of_mem h3.nodup hkv) (lastMember_of_mem h3.nodup hm)
      subst this
      exact Json.toAny_idem _ _ hw'
  have hm : ∀ l : List (Bytes × Json), (∀ kv ∈ l, kv.2.toAny = some kv.2) → Json.toAnyMembers l = some l := by
    intro l hl
    induction l with
    | nil => rfl
    | cons x xs ih =>
      obtain ⟨k, v⟩ := x
      simp [Json.toAnyMembers, hl (k, v) (by simp), ih fun kv hkv => hl kv (by simp [hkv])]
  refine sound_intro h2 (hm M hany) ?_ rfl h5
  rw [GoMap.ofList_of_sorted (sorted_pairwise.2 h3.sorted)]
  exact h4

/-- Every plugin of a list loaded from its text is sound. -/
theorem c24_loaded_sound (sort : List Bytes → List Bytes) (hsort : VersionSorter sort) (b : Bytes) (L : NetConfList)
    (h : networkConfFromBytesWith sort b = .ok L) : ∀ p ∈ L.plugins, Sound p := by
  obtain ⟨ms, -, -, -, -, -, -, -, -, hp⟩ := c09_loaded sort hsort b L h
  intro p hp'
  rcases hp with ⟨-, -, hn⟩ | ⟨l, -, -, hlen, hl⟩
  · rw [hn] at hp'; simp at hp'
  · obtain ⟨i, hi, rfl⟩ := List.mem_iff_getElem.1 hp'
    exact pluginLoads_sound (hl i (by omega) hi)

/-- GC of such a list crashes only through the conversion of a cached result with null entries. -/
theorem c24_no_crash (sort : List Bytes → List Bytes) (hsort : VersionSorter sort) (b : Bytes) (L : NetConfList)
    (h : networkConfFromBytesWith sort b = .ok L) (c : CNIConfig) (valid : Option (List GCAttachment)) (fs fs' : FS) (tr : Trace)
    (hr : Runs flt (c.gcNetworkList L valid) fs tr fs' .panic) :
    ∃ a, InCache c fs a ∧ Stale L.name valid a ∧ ∃ p b, c.cachePath L.name (rtOf a) = .ok p ∧ fs p = some b ∧ HoldsNull b :=
  c50_gc c L valid (c24_loaded_sound sort hsort b L h) fs fs' tr hr

/-- The hypothesis of the theorems of C50 holds for everything the loaders return: a list from a file, with the plugins from the
files of its folder; a plugin configuration; a list found by name. -/
theorem c50_loaded_file (cfs : ConfFS) (f : Bytes) (L : NetConfList) (h : networkConfFromFile cfs f = .ok L) :
    ∀ p ∈ L.plugins, IsObject p := by
  obtain ⟨b, L0, extra, -, hL0, rfl, -, h1, h2⟩ := c52_from_file cfs f L h
  intro p hp
  rw [List.mem_append] at hp
  rcases hp with hp | hp
  · exact Sound_isObject (c24_loaded_sound _ versionSorter_insertion b L0 hL0 p hp)
  · cases hl : L0.loadOnlyInlined with
    | true => rw [h1 hl] at hp; simp at hp
    | false =>
      obtain ⟨l, -, ⟨-, he⟩ | ⟨es, -, he⟩⟩ := h2 hl
      · rw [he] at hp; simp at hp
      · have : Out.ok p ∈ extra.map (fun p => Out.ok p) := List.mem_map.2 ⟨p, hp, rfl⟩
        rw [he, List.mem_map] at this
        obtain ⟨e, -, hc⟩ := this
        unfold confFromFile at hc
        split at hc
        · cases hc
        · rename_i b' _
          obtain ⟨hb, -, ms, hms, -⟩ := loaded_obj hc
          exact ⟨ms, by rw [hb]; exact hms⟩

theorem c50_loaded_conf (b : Bytes) (p : PluginConfig) (h : pluginConfFromBytes b = .ok p) : IsObject p := by
  obtain ⟨hb, -, ms, hms, -⟩ := loaded_obj h
  exact ⟨ms, by rw [hb]; exact hms⟩

theorem c50_loaded_name (cfs : ConfFS) (dir name : Bytes) (L : NetConfList) (h : loadNetworkConf cfs dir name = .ok L) :
    ∀ p ∈ L.plugins, IsObject p := by
  unfold loadNetworkConf at h
  obtain ⟨files, -, h⟩ := Out.bind_eq_ok h
  obtain ⟨r, hr, h⟩ := Out.bind_eq_ok h
  split at h
  · rename_i c
    cases h
    rcases loadListLoop_first cfs name (sortStrings files) with ⟨-, he⟩ | ⟨pre, f, post, -, -, hx⟩
    · rw [hr] at he; cases he
    · rcases hx with ⟨c', hf, -, he⟩ | ⟨e, -, he⟩
      · rw [hr] at he
        cases he
        exact c50_loaded_file cfs f _ hf
      · rw [hr] at he; cases he
  · obtain ⟨single, -, h⟩ := Out.bind_eq_ok h
    split at h
    · cases h
    · obtain ⟨c, -, h⟩ := Out.bind_eq_ok h
      unfold confListFromConf at h
      repeat' split at h
      all_goals first
        | cases h; done
        | exact fun p hp => Sound_isObject (c24_loaded_sound _ versionSorter_insertion _ L h p hp)

theorem gcLoop_crash {c : CNIConfig} {name ver : Bytes} {valid : Option (List GCAttachment)} {ps : List PluginConfig}
    (hs : ∃ p ∈ ps, ∀ conf, injectConf p (gcValues name ver valid) ≠ .ok conf) :
    ∀ {errs : List GoErr} {fs fs' : FS} {tr : Trace} {o : Out (List GoErr)}, Runs flt (c.gcLoop name ver valid ps errs) fs tr fs' o →
      o = .panic := by
  induction ps with
  | nil => simp at hs
  | cons p ps ih =>
    intro errs fs fs' tr o h
    unfold CNIConfig.gcLoop at h
    split at h
    · rename_i conf hc
      obtain ⟨q, hq, hn⟩ := hs
      rw [List.mem_cons] at hq
      rcases hq with rfl | hq
      · exact absurd hc (hn conf)
      · obtain ⟨tr1, tr2, fs1, o1, -, h1, h2⟩ := runs_bind.1 h
        cases o1 with
        | ok r => exact ih ⟨q, hq, hn⟩ h2
        | err e =>
          obtain ⟨o2, -, he⟩ := runs_attempt.1 h1
          cases o2 <;> cases he
        | panic => exact h2.2.2
    · exact (runs_done.1 h).2.2
    · exact (runs_done.1 h).2.2

/-- A configuration that cannot be rewritten crashes GC, whatever else happens (from version 1.1.0 on): the error of the
rewriting is recorded but the missing configuration is used all the same. -/
theorem c24_crash (c : CNIConfig) (list : NetConfList) (valid : Option (List GCAttachment)) (hd : list.disableGC = false)
    (hv : AtLeast list.cniVersion (1, 1, 0)) (p : PluginConfig) (hp : p ∈ list.plugins)
    (hn : ∀ conf, injectConf p (gcValues list.name list.cniVersion valid) ≠ .ok conf) (fs fs' : FS) (tr : Trace) (o : Out Unit)
    (h : Runs false (c.gcNetworkList list valid) fs tr fs' o) : o = .panic := by
  obtain ⟨tr0, o0, h0, hx⟩ := gcNetworkList_runs hd h
  obtain ⟨-, -, names, l0, rfl, -⟩ := c21_all c fs fs tr0 o0 h0
  rcases hx with ⟨hno, -⟩ | ⟨atts, l, trd, os, fs1, he, hdl, hx⟩
  · exact absurd rfl (hno l0)
  · rcases hx with ⟨-, -, -, -, h⟩ | ⟨-, -, trg, es, -, -, ⟨hnv, -⟩ | ⟨-, o1, hg, rfl⟩⟩
    · exact h
    · exact absurd hv hnv
    · rw [gcLoop_crash ⟨p, hp, hn⟩ hg]
      rfl

/-! ### examples -/

namespace Example

/-- A plugin configuration that is loaded from a file of its own without complaint, but cannot be rewritten. -/
def big : Bytes := b!"{\"type\":\"x\",\"foo\":1e999}"
def plugBig : PluginConfig := { network := { type := b!"x" }, bytes := big }
theorem big_loads : pluginConfFromBytes big = .ok plugBig := by
  have hj : Json.parse big = some (.obj [(b!"type", .str b!"x"), (b!"foo", .num b!"1e999")]) := by decide +kernel
  exact pluginConfFromBytes_intro hj (by decide +kernel) (by decide)

/-- Not covered by `c24_loaded_sound`, which is about plugins written in the list: GC crashes on it. -/
theorem _root_.Verif.c24_file_crashes (c : CNIConfig) (name : Bytes) (valid : Option (List GCAttachment)) (fs fs' : FS) (tr : Trace)
    (o : Out Unit) (h : Runs false (c.gcNetworkList { name := name, cniVersion := b!"1.1.0", plugins := [plugBig] } valid) fs tr fs' o) :
    pluginConfFromBytes big = .ok plugBig ∧ o = .panic := by
  refine ⟨big_loads, c24_crash c _ valid rfl ?_ plugBig (by simp) ?_ fs fs' tr o h⟩
  · exact ⟨(1, 1, 0), (parseVersion_iff _ _).1 (by simp only; decide +kernel), .inl rfl⟩
  · have hj : Json.parse plugBig.bytes = some (.obj [(b!"type", .str b!"x"), (b!"foo", .num b!"1e999")]) := by decide +kernel
    have hm : Json.toAnyMembers [(b!"type", .str b!"x"), (b!"foo", .num b!"1e999")] = none := by decide +kernel
    intro conf hc
    simp [injectConf, hj, rawMap_obj, hm] at hc

/-- A result with a null entry, as a plugin may print it, in the cache: DEL crashes. -/
def nullEntry : Bytes := b!"{\"kind\":\"cniCacheV1\",\"containerId\":\"c1\",\"config\":\"e30=\",\"ifName\":\"eth0\",\"networkName\":\"net\",\"netns\":\"/ns\",\"result\":{\"cniVersion\":\"1.0.0\",\"ips\":[null]}}"
def nullInfo : CachedInfo :=
  { kind := b!"cniCacheV1", containerID := b!"c1", config := b!"{}", ifName := b!"eth0", networkName := b!"net", netNS := b!"/ns",
    rawResult := some [(b!"cniVersion", .str b!"1.0.0"), (b!"ips", .arr [.null])] }
theorem nullEntry_holds : HoldsNull nullEntry := by
  refine ⟨.v100 { cniVersion := b!"1.0.0", ips := [none] }, .inl ⟨nullInfo, ⟨by decide +kernel, by decide +kernel⟩, ?_⟩, by simp [NoNull]⟩
  have : (createFromBytes (mapJson nullInfo.rawResult).print).toOption = some (.v100 { cniVersion := b!"1.0.0", ips := [none] }) := by
    decide +kernel
  revert this
  cases createFromBytes (mapJson nullInfo.rawResult).print <;> simp [Out.toOption]

/-- Whether an outcome is a crash. -/
def crashed : Out α → Bool
  | .panic => true
  | _ => false

theorem _root_.Verif.c50_null_crashes : ∃ tr fs' o, Runs false (cfg.delNetworkList { list with cniVersion := b!"0.4.0" } rt)
    (FS.set noFiles key (some nullEntry)) tr fs' o ∧
    crashed o = true :=
  Prog.interp_exists (find := find) (exec := good) (fun _ _ o => crashed o) (by decide +kernel)

/-- The plugins of the examples are objects. -/
example : ∀ p ∈ list.plugins, IsObject p := fun p hp => Sound_isObject (list11_sound p hp)

end Example

end Verif
