/- C22, C23, C24, C25: garbage collection and status. -/
import Verif.Props.Attach
import Verif.Props.Conf
import Verif.Spec.Gc

namespace Verif
open Spec
set_option linter.unusedSimpArgs false

variable {flt : Bool} {fs fs' : FS} {tr : Trace}

/-! ### the configuration for GC and STATUS -/

theorem gcValues_good (name ver : Bytes) (valid : Option (List GCAttachment)) : AllGood (gcValues name ver valid) := by
  cases valid <;> simp [AllGood, gcValues]

theorem gcValues_keys (name ver : Bytes) (valid : Option (List GCAttachment)) : ((gcValues name ver valid).map Prod.fst).Nodup := by
  cases valid <;> simp [gcValues]

theorem jAttachments_numsOK (l : List GCAttachment) : (jAttachments l).NumsOK := by
  unfold jAttachments
  simp only [Json.NumsOK]
  induction l with
  | nil => simp [Json.NumsOKList]
  | cons a l ih => simp [Json.NumsOKList, ih, jAttachment, Json.NumsOK, Json.NumsOKMembers]

theorem jAttachments_clean (l : List GCAttachment) : (jAttachments l).clean = attachmentsDoc l := by
  unfold jAttachments attachmentsDoc
  simp only [Json.clean]
  congr 1
  induction l with
  | nil => rfl
  | cons a l ih =>
    simp only [List.map_cons, Json.cleanList, ih]
    congr 1

theorem gcValues_ok (name ver : Bytes) (valid : Option (List GCAttachment)) : ValsOK (goodVals (gcValues name ver valid)) := by
  intro kv hkv
  obtain ⟨k, v⟩ := kv
  rw [mem_goodVals] at hkv
  cases valid with
  | none =>
    simp only [gcValues, List.append_nil, List.mem_cons, Prod.mk.injEq, Option.some.injEq, List.not_mem_nil, or_false] at hkv
    rcases hkv with ⟨rfl, rfl⟩ | ⟨rfl, rfl⟩ <;> exact ⟨by simp only; decide +kernel, by simp [Json.NumsOK]⟩
  | some l =>
    simp only [gcValues, List.cons_append, List.nil_append, List.mem_cons, Prod.mk.injEq, Option.some.injEq, List.not_mem_nil, or_false] at hkv
    rcases hkv with ⟨rfl, rfl⟩ | ⟨rfl, rfl⟩ | ⟨rfl, rfl⟩ | ⟨rfl, rfl⟩
    · exact ⟨by simp only; decide +kernel, by simp [Json.NumsOK]⟩
    · exact ⟨by simp only; decide +kernel, by simp [Json.NumsOK]⟩
    · exact ⟨by simp only; decide +kernel, jAttachments_numsOK l⟩
    · exact ⟨by simp only; decide +kernel, jAttachments_numsOK l⟩

theorem inject_bare {p conf : PluginConfig} {name ver : Bytes} {valid : Option (List GCAttachment)}
    (h : injectConf p (gcValues name ver valid) = .ok conf) :
    BareStdin p.bytes name ver valid conf.bytes := by
  obtain ⟨ms, M, h1, h2, -, hI, h5, -⟩ := c04_inject_effect p conf _ (gcValues_keys ..) (gcValues_ok _ _ _) h
  refine ⟨ms, M, h1, h2, hI.nodup, hI.sorted, ⟨_, h5⟩, ?_, ?_, ?_, ?_, ?_⟩
  · exact hI.given b!"name" (.str name) (mem_goodVals.2 (by simp [gcValues]))
  · exact hI.given b!"cniVersion" (.str ver) (mem_goodVals.2 (by simp [gcValues]))
  · rintro l rfl
    rw [← jAttachments_clean]
    exact ⟨hI.given _ (jAttachments l) (mem_goodVals.2 (by simp [gcValues])),
      hI.given _ (jAttachments l) (mem_goodVals.2 (by simp [gcValues]))⟩
  · rintro rfl
    constructor <;> (apply hI.others; rw [goodVals_keys (gcValues_good _ _ _)]; simp [gcValues])
  · intro k hk
    apply hI.others
    rw [goodVals_keys (gcValues_good _ _ _)]
    intro hk'
    apply hk
    cases valid with
    | none => simp [gcValues] at hk'; rcases hk' with rfl | rfl <;> simp
    | some l => simp [gcValues] at hk'; rcases hk' with rfl | rfl | rfl | rfl <;> simp

theorem fieldMatch_bare :
    fieldMatch pluginConfFields b!"name" = some b!"name" ∧ fieldMatch pluginConfFields b!"cniVersion" = some b!"cniVersion" ∧
    fieldMatch pluginConfFields b!"cni.dev/valid-attachments" = some b!"cni.dev/valid-attachments" ∧
    fieldMatch pluginConfFields b!"cni.dev/attachments" = none := by decide +kernel

theorem decAttachment_doc (g : GCAttachment) :
    (decAttachment (.obj [(b!"containerID", .str (sanitize g.containerID)), (b!"ifname", .str (sanitize g.ifName))])).isSome = true := by
  rfl

theorem attachmentsDoc_ok (l : List GCAttachment) : fieldOK b!"cni.dev/valid-attachments" (attachmentsDoc l) = true := by
  have : fieldOK b!"cni.dev/valid-attachments" (attachmentsDoc l) = (decList decAttachment [] (attachmentsDoc l)).isSome := by
    unfold fieldOK
    simp
  rw [this]
  unfold attachmentsDoc decList
  simp only [Option.isSome_map]
  rw [mapM_isSome]
  intro v hv
  obtain ⟨g, -, rfl⟩ := List.mem_map.1 hv
  exact decAttachment_doc g

/-- The values of GC and STATUS can be stored into every sound configuration. -/
theorem Sound_inject {p : PluginConfig} (hs : Sound p) (name ver : Bytes) (valid : Option (List GCAttachment)) :
    ∃ conf, injectConf p (gcValues name ver valid) = .ok conf ∧ conf.network.type = p.network.type := by
  obtain ⟨ms, M, c, h1, hm, hI, hc, ht, hne⟩ := hs
  obtain ⟨m, hm⟩ := (members_inRange (Json.parse_WF h1)).2 hm
  have e := injected_unique hI (injected_insertAll hm (by simp))
  have e : M = GoMap.ofList m := e
  subst e
  have key : ∃ c', decPluginConf (.obj (GoMap.insertAll (GoMap.ofList m) (cleanVals (goodVals (gcValues name ver valid))))) = some c' ∧
      c'.type = c.type := by
    have ins : ∀ {m : GoMap Json} {c : PluginConf} (k : Bytes) (v : Json), decPluginConf (.obj m) = some c →
        k ∈ [b!"name", b!"cniVersion", b!"prevResult", b!"runtimeConfig", b!"cni.dev/valid-attachments", b!"cni.dev/attachments"] →
        (∀ f, fieldMatch pluginConfFields k = some f → fieldOK f v = true) →
        ∃ c', decPluginConf (.obj (GoMap.insert m k v)) = some c' ∧ c'.type = c.type := by
      intro m c k v hc hk hv
      obtain ⟨c', h1, h2, -⟩ := decPluginConf_insert hc hv (fieldMatch_caps k hk).2 (fieldMatch_caps k hk).1
      exact ⟨c', h1, h2⟩
    obtain ⟨c1, hc1, t1⟩ := ins b!"name" (.str (sanitize name)) hc (by simp) (by
      intro f hf; rw [fieldMatch_bare.1] at hf; cases hf; rfl)
    obtain ⟨c2, hc2, t2⟩ := ins b!"cniVersion" (.str (sanitize ver)) hc1 (by simp) (by
      intro f hf; rw [fieldMatch_bare.2.1] at hf; cases hf; rfl)
    cases valid with
    | none => exact ⟨c2, hc2, t2.trans t1⟩
    | some l =>
      obtain ⟨c3, hc3, t3⟩ := ins b!"cni.dev/valid-attachments" (attachmentsDoc l) hc2 (by simp) (by
        intro f hf; rw [fieldMatch_bare.2.2.1] at hf; cases hf; exact attachmentsDoc_ok l)
      obtain ⟨c4, hc4, t4⟩ := ins b!"cni.dev/attachments" (attachmentsDoc l) hc3 (by simp) (by
        intro f hf; rw [fieldMatch_bare.2.2.2] at hf; cases hf)
      refine ⟨c4, ?_, t4.trans (t3.trans (t2.trans t1))⟩
      rw [← jAttachments_clean] at hc4
      exact hc4
  obtain ⟨c', hc', ht'⟩ := key
  refine ⟨_, (injectConf_obj h1 hm (gcValues_good _ _ _)).trans
    (pluginConfFromBytes_intro (parse_insertAll (ofList_WF (Json.parse_WF h1) hm) (gcValues_ok _ _ _)) hc' (by rw [ht']; exact hne)), ?_⟩
  exact ht'.trans ht

/-! ### attachments in the cache -/

theorem insertAll_nums {m l : List (Bytes × Json)} (hm : ∀ kv ∈ m, kv.2.NumsOK) (hl : ∀ kv ∈ l, kv.2.NumsOK) :
    ∀ kv ∈ GoMap.insertAll m l, kv.2.NumsOK := by
  rintro ⟨k, v⟩ hkv
  rcases insertAll_keys hkv with h | h
  · exact hm _ h
  · exact hl _ h

theorem decAnyMap_ok {cur r : Option (GoMap Json)} {v : Json} (hw : v.WF)
    (hc : ∀ m, cur = some m → GoMap.Sorted m ∧ ∀ kv ∈ m, kv.2.NumsOK) (h : decAnyMap cur v = some r) :
    ∀ m, r = some m → GoMap.Sorted m ∧ ∀ kv ∈ m, kv.2.NumsOK := by
  cases v with
  | null => simp [decAnyMap] at h; subst h; simp
  | obj ms =>
    simp only [decAnyMap, Option.map_eq_some_iff] at h
    obtain ⟨l, hl, rfl⟩ := h
    rintro m hm
    cases hm
    have hcur : GoMap.Sorted (cur.getD []) ∧ ∀ kv ∈ cur.getD [], kv.2.NumsOK := by
      cases cur with
      | none => exact ⟨trivial, by simp⟩
      | some m => exact hc m rfl
    refine ⟨GoMap.sorted_insertAll hcur.1 _, insertAll_nums hcur.2 ?_⟩
    intro kv hkv
    obtain ⟨kv', hkv', -, e⟩ := toAnyMembers_mem hl kv hkv
    simp only [Json.WF] at hw
    rw [WFMembers_iff] at hw
    exact Json.NumsOK_of_WF _ (Json.toAny_WF _ _ (hw kv' hkv').2 e)
  | _ => simp [decAnyMap] at h

/-- What is read from the cache can be given to plugins again. -/
theorem entryOf_ok {b : Bytes} {a : Attachment} (h : entryOf b = some a) :
    (rtOf a).OK ∧ a.network ≠ [] ∧ a.ifName ≠ [] := by
  unfold entryOf at h
  rw [Option.bind_eq_some_iff] at h
  obtain ⟨i, hi, h⟩ := h
  split at h
  · rename_i hk
    cases h
    refine ⟨?_, hk.2.2, hk.2.1⟩
    unfold readCachedInfo at hi
    rw [Option.bind_eq_some_iff] at hi
    obtain ⟨j, hj, hd⟩ := hi
    have hw := Json.parse_WF hj
    simp only [decCachedInfo, Option.bind_eq_bind, Option.bind_eq_some_iff] at hd
    obtain ⟨ms, hms, _, _, _, _, _, _, _, _, _, _, _, _, _, _, caps, hcaps, _, _, hd⟩ := hd
    simp only [Option.some.injEq] at hd
    subst hd
    have hwm : ∀ kv ∈ ms, kv.2.WF := by
      cases j with
      | null => simp [structMembers] at hms; subst hms; simp
      | obj l =>
        simp [structMembers] at hms; subst hms
        simp only [Json.WF] at hw
        rw [WFMembers_iff] at hw
        exact fun kv hkv => (hw kv hkv).2
      | _ => simp [structMembers] at hms
    have := decAll_inv (P := fun r : Option (GoMap Json) => ∀ m, r = some m → GoMap.Sorted m ∧ ∀ kv ∈ m, kv.2.NumsOK) (Q := Json.WF)
      (fun c v r hc hv hr => decAnyMap_ok hv hc hr) (i := none) (by simp) (fun v hv => by
        obtain ⟨k, hk, _⟩ := mem_getField.1 hv
        exact hwm _ hk) hcaps
    cases caps with
    | none => exact ⟨trivial, by simp [rtOf]⟩
    | some m => exact ⟨(this m rfl).1, (this m rfl).2⟩
  · cases h

theorem attachmentIn_ok {c : CNIConfig} {n : Bytes} {a : Attachment} (h : attachmentIn c fs n = some a) :
    (rtOf a).OK ∧ a.network ≠ [] ∧ a.ifName ≠ [] := by
  unfold attachmentIn at h
  rw [Option.bind_eq_some_iff] at h
  obtain ⟨b, -, h⟩ := h
  exact entryOf_ok h

theorem attachmentLoop_mem {c : CNIConfig} {names : List Bytes} (hn : ∀ n ∈ names, IsComp n) :
    ∀ {tr : Trace} {fs fs' : FS} {o : Out (List Attachment)}, Runs flt (attachmentLoop (resultsDir c) [] names) fs tr fs' o →
    ∃ l, o = .ok l ∧ ∀ a ∈ l, InCache c fs a := by
  induction names with
  | nil => intro tr fs fs' o h; obtain ⟨-, -, rfl⟩ := runs_done.1 h; exact ⟨[], rfl, by simp⟩
  | cons n names ih =>
    intro tr fs fs' o h
    unfold attachmentLoop at h
    rw [if_neg (by simp)] at h
    obtain ⟨r, fs1, tr', hs, rfl, hr⟩ := runs_op.1 h
    have hfs1 : fs1 = fs := step_readonly hs rfl
    subst hfs1
    obtain ⟨tr1, tr2, fs2, o1, rfl, h1, h2⟩ := runs_bind.1 hr
    obtain ⟨l, rfl, hl⟩ := ih (fun x hx => hn x (by simp [hx])) h1
    obtain ⟨-, -, rfl⟩ := runs_done.1 h2
    refine ⟨_, rfl, fun a ha => ?_⟩
    rcases List.mem_append.1 ha with ha | ha
    · cases hs with
      | readFileFails _ hf => simp [attachmentOf] at ha
      | readFile =>
        rw [joinPath_resultsDir (hn n (by simp)), attachmentOf_entryOf] at ha
        refine ⟨n, hn n (by simp), ?_⟩
        simpa [attachmentIn, Option.filter_eq_some_iff] using ha
    · exact hl a ha

/-- A listing, with any file operation allowed to fail. -/
theorem getCachedAttachments_mem {c : CNIConfig} {o : Out (List Attachment)}
    (h : Runs flt (c.getCachedAttachments []) fs tr fs' o) :
    fs' = fs ∧ tr.execs = [] ∧ o ≠ .panic ∧ ∀ l, o = .ok l → ∀ a ∈ l, InCache c fs a := by
  have hl := getCachedAttachments_looks (c := c) (cid := [])
  refine ⟨(hl.mono fun _ h => h.1).readonly h, (hl.mono fun _ h => h.2).noExec h, ?_⟩
  unfold CNIConfig.getCachedAttachments at h
  obtain ⟨r, fs1, tr', hs, rfl, hr⟩ := runs_op.1 h
  have hfs1 : fs1 = fs := step_readonly hs rfl
  subst hfs1
  cases r with
  | error b =>
    cases b with
    | true =>
      obtain ⟨-, -, rfl⟩ := runs_done.1 hr
      exact ⟨by simp, fun l hl => by cases hl; simp⟩
    | false =>
      obtain ⟨-, -, rfl⟩ := runs_done.1 hr
      exact ⟨by simp, by simp⟩
  | ok ns =>
    cases hs with
    | readDir _ _ hls =>
      simp only at hr
      rw [resultsDir_eq] at hr
      obtain ⟨l, rfl, hl⟩ := attachmentLoop_mem (fun n hn => hls.2.1 n ((sortStrings_perm _).mem_iff.1 hn)) hr
      exact ⟨by simp, fun l' hl' => by cases hl'; exact hl⟩

theorem isStale_iff {name : Bytes} {valid : Option (List GCAttachment)} {a : Attachment} :
    isStale name valid a = true ↔ Stale name valid a := by
  unfold isStale Stale
  rw [Bool.and_eq_true, decide_eq_true_eq, Bool.not_eq_true', List.contains_eq_mem, decide_eq_false_iff_not]
  refine and_congr_right fun _ => ?_
  cases valid with
  | none => simp
  | some l =>
    simp only [Option.getD_some, Option.some.injEq, forall_eq']
    constructor
    · rintro h g hg ⟨h1, h2⟩
      apply h
      obtain ⟨x, y⟩ := g
      simp only at h1 h2
      subst h1 h2
      exact hg
    · intro h hm
      exact h _ hm ⟨rfl, rfl⟩

/-! ### the loops -/

theorem gcDelLoop_runs {c : CNIConfig} {list : NetConfList} {valid : Option (List GCAttachment)} {atts : List Attachment} :
    ∀ {errs : List GoErr} {fs fs' : FS} {tr : Trace} {o : Out (List GoErr)}, Runs flt (c.gcDelLoop list valid atts errs) fs tr fs' o →
    ∃ l os, Dels flt c list l fs tr fs' os ∧
      ((l = atts.filter (isStale list.name valid) ∧ (∀ o' ∈ os, o' ≠ .panic) ∧
          ∃ es, o = .ok (errs ++ es) ∧ Wrapped (os.filterMap outFailure) es) ∨
        (l <+: atts.filter (isStale list.name valid) ∧ os.getLast? = some .panic ∧ o = .panic)) := by
  induction atts with
  | nil =>
    intro errs fs fs' tr o h
    obtain ⟨rfl, rfl, rfl⟩ := runs_done.1 h
    exact ⟨[], [], .nil _, .inl ⟨rfl, by simp, [], by simp, .nil⟩⟩
  | cons a atts ih =>
    intro errs fs fs' tr o h
    unfold CNIConfig.gcDelLoop at h
    by_cases hs : isStale list.name valid a = true
    · rw [if_pos hs] at h
      obtain ⟨tr1, tr2, fs1, o1, rfl, h1, h2⟩ := runs_bind.1 h
      obtain ⟨o0, h0, rfl⟩ := runs_attempt.1 h1
      have h0 : Runs flt (c.delNetworkList list (rtOf a)) fs tr1 fs1 o0 := h0
      cases o0 with
      | panic =>
        obtain ⟨rfl, rfl, rfl⟩ := h2
        refine ⟨[a], [.panic], .cons h0 (.nil _), .inr ⟨?_, rfl, rfl⟩⟩
        rw [List.filter_cons, if_pos hs]
        exact ⟨_, rfl⟩
      | ok u =>
        obtain ⟨l, os, hd, hx⟩ := ih h2
        refine ⟨a :: l, .ok u :: os, .cons h0 hd, ?_⟩
        rw [List.filter_cons, if_pos hs]
        rcases hx with ⟨rfl, hp, es, rfl, he⟩ | ⟨hpre, hl, rfl⟩
        · exact .inl ⟨rfl, by simpa using hp, es, rfl, he⟩
        · refine .inr ⟨List.cons_prefix_cons.2 ⟨rfl, hpre⟩, ?_, rfl⟩
          cases os with
          | nil => simp at hl
          | cons x os => rw [List.getLast?_cons_cons]; exact hl
      | err g =>
        obtain ⟨l, os, hd, hx⟩ := ih h2
        refine ⟨a :: l, .err g :: os, .cons h0 hd, ?_⟩
        rw [List.filter_cons, if_pos hs]
        rcases hx with ⟨rfl, hp, es, rfl, he⟩ | ⟨hpre, hl, rfl⟩
        · refine .inl ⟨rfl, by simpa using hp, _ :: es, by rw [List.append_assoc]; rfl, ?_⟩
          exact .cons ⟨_, rfl⟩ he
        · refine .inr ⟨List.cons_prefix_cons.2 ⟨rfl, hpre⟩, ?_, rfl⟩
          cases os with
          | nil => simp at hl
          | cons x os => rw [List.getLast?_cons_cons]; exact hl
    · rw [if_neg hs] at h
      obtain ⟨l, os, hd, hx⟩ := ih h
      refine ⟨l, os, hd, ?_⟩
      rw [List.filter_cons, if_neg hs]
      exact hx

theorem bareNetwork1_runs {c : CNIConfig} {verb : Bytes} {conf : PluginConfig} {o : Out Unit}
    (h : Runs flt (c.bareNetwork1 verb conf) fs tr fs' o) :
    fs' = fs ∧ ((∃ g, tr = [⟨.find conf.network.type c.path, (.error g : Except GoErr Bytes)⟩] ∧ o = .err g) ∨
      ∃ path r, tr = [⟨.find conf.network.type c.path, (.ok path : Except GoErr Bytes)⟩,
          ⟨.exec path conf.bytes (.args (attachArgs c verb {})), r⟩] ∧
        o = match r with | .ok _ => .ok () | .error g => .err g) := by
  unfold CNIConfig.bareNetwork1 at h
  simp only [prog_bind_eq] at h
  obtain ⟨tr1, tr2, fs1, o1, rfl, h1, h2⟩ := runs_bind.1 h
  obtain ⟨r, rfl, rfl, rfl⟩ := runs_findPlugin.1 h1
  cases r with
  | error g => obtain ⟨rfl, rfl, rfl⟩ := h2; exact ⟨rfl, .inl ⟨g, rfl, rfl⟩⟩
  | ok path =>
    obtain ⟨r, rfl, rfl, rfl⟩ := runs_execWithoutResult.1 h2
    exact ⟨rfl, .inr ⟨path, r, rfl, by cases r <;> rfl⟩⟩

theorem gcLoop_runs {c : CNIConfig} {name ver : Bytes} {valid : Option (List GCAttachment)} {ps : List PluginConfig}
    (hs : ∀ p ∈ ps, Sound p) :
    ∀ {errs : List GoErr} {fs fs' : FS} {tr : Trace} {o : Out (List GoErr)}, Runs flt (c.gcLoop name ver valid ps errs) fs tr fs' o →
    fs' = fs ∧ ∃ gs es, Asks c b!"GC" name ver valid ps tr gs ∧ o = .ok (errs ++ es) ∧ Wrapped (gs.filterMap id) es := by
  induction ps with
  | nil =>
    intro errs fs fs' tr o h
    obtain ⟨rfl, rfl, rfl⟩ := runs_done.1 h
    exact ⟨rfl, [], [], .nil, by simp, .nil⟩
  | cons p ps ih =>
    intro errs fs fs' tr o h
    obtain ⟨conf, hconf, ht⟩ := Sound_inject (hs p (by simp)) name ver valid
    have hb := inject_bare hconf
    unfold CNIConfig.gcLoop at h
    rw [hconf] at h
    simp only at h
    obtain ⟨tr1, tr2, fs1, o1, rfl, h1, h2⟩ := runs_bind.1 h
    obtain ⟨o0, h0, rfl⟩ := runs_attempt.1 h1
    obtain ⟨rfl, ⟨g, rfl, rfl⟩ | ⟨path, r, rfl, rfl⟩⟩ := bareNetwork1_runs h0 <;> rw [ht]
    · obtain ⟨rfl, gs, es, ha, rfl, hw⟩ := ih (fun q hq => hs q (by simp [hq])) h2
      exact ⟨rfl, _, _ :: es, .notFound ha, by rw [List.append_assoc]; rfl, .cons ⟨_, rfl⟩ hw⟩
    · cases r with
      | ok out =>
        obtain ⟨rfl, gs, es, ha, rfl, hw⟩ := ih (fun q hq => hs q (by simp [hq])) h2
        exact ⟨rfl, _, es, .asked hb ha, rfl, hw⟩
      | error g =>
        obtain ⟨rfl, gs, es, ha, rfl, hw⟩ := ih (fun q hq => hs q (by simp [hq])) h2
        exact ⟨rfl, _, _ :: es, .asked hb ha, by rw [List.append_assoc]; rfl, .cons ⟨_, rfl⟩ hw⟩

theorem atLeast110_iff {v : Bytes} : atLeast110 v = true ↔ AtLeast v (1, 1, 0) := by
  unfold atLeast110
  rcases gte_atLeast (v := v) reads_110 with ⟨h, ha⟩ | ⟨h, ha, _⟩ | ⟨g, h, ha, _⟩ <;> rw [h] <;> simp [ha]

theorem Spec.Wrapped.append {a b x y : List GoErr} (h1 : Wrapped a x) (h2 : Wrapped b y) : Wrapped (a ++ b) (x ++ y) := by
  induction h1 with
  | nil => exact h2
  | cons h _ ih => exact .cons h ih

theorem Spec.Wrapped.nil_iff {a x : List GoErr} (h : Wrapped a x) : x = [] ↔ a = [] := by
  cases h <;> simp

/-- The parts of a GC: the listing; the DELs of the stale attachments listed; the GCs. -/
theorem gcNetworkList_runs {c : CNIConfig} {list : NetConfList} {valid : Option (List GCAttachment)}
    (hd : list.disableGC = false) {o : Out Unit} (h : Runs flt (c.gcNetworkList list valid) fs tr fs' o) :
    ∃ tr0 o0, Runs flt (c.getCachedAttachments []) fs tr0 fs o0 ∧
      (((∀ l, o0 ≠ .ok l) ∧ tr = tr0 ∧ fs' = fs ∧ o = .ok ()) ∨
      ∃ atts l trd os fs1, o0 = .ok atts ∧ Dels flt c list l fs trd fs1 os ∧
        ((l <+: atts.filter (isStale list.name valid) ∧ os.getLast? = some .panic ∧ tr = tr0 ++ trd ∧ fs' = fs1 ∧ o = .panic) ∨
        (l = atts.filter (isStale list.name valid) ∧ (∀ x ∈ os, x ≠ .panic) ∧ ∃ trg es, tr = tr0 ++ trd ++ trg ∧
          Wrapped (os.filterMap outFailure) es ∧
          ((¬ AtLeast list.cniVersion (1, 1, 0) ∧ trg = [] ∧ fs' = fs1 ∧ o = joinErrs es) ∨
            (AtLeast list.cniVersion (1, 1, 0) ∧ ∃ o1, Runs flt (c.gcLoop list.name list.cniVersion valid list.plugins es) fs1 trg fs' o1 ∧
              o = o1.bind joinErrs))))) := by
  unfold CNIConfig.gcNetworkList at h
  rw [hd, if_neg (by simp)] at h
  obtain ⟨tr0, tr2, fs1, o1, rfl, h1, h2⟩ := runs_bind.1 h
  obtain ⟨o0, h0, rfl⟩ := runs_attempt.1 h1
  obtain ⟨rfl, hne, hnp, -⟩ := getCachedAttachments_mem h0
  refine ⟨tr0, o0, h0, ?_⟩
  cases o0 with
  | panic => exact absurd rfl hnp
  | err g =>
    obtain ⟨rfl, rfl, rfl⟩ := runs_done.1 h2
    exact .inl ⟨by simp, by simp, rfl, rfl⟩
  | ok atts =>
    obtain ⟨trd, trg, fs2, o2, rfl, h3, h4⟩ := runs_bind.1 h2
    obtain ⟨l, os, hdl, hx⟩ := gcDelLoop_runs h3
    refine .inr ⟨atts, l, trd, os, fs2, rfl, hdl, ?_⟩
    rcases hx with ⟨hl, hp, es, rfl, hw⟩ | ⟨hl, hp, rfl⟩
    · refine .inr ⟨hl, hp, trg, es, by simp, hw, ?_⟩
      have h4 : Runs flt _ fs2 trg fs' o := h4
      simp only [List.nil_append] at h4
      by_cases ha : AtLeast list.cniVersion (1, 1, 0)
      · rw [if_pos (atLeast110_iff.2 ha)] at h4
        obtain ⟨tr5, tr6, fs3, o3, rfl, h5, h6⟩ := runs_bind.1 h4
        refine .inr ⟨ha, o3, ?_⟩
        cases o3 with
        | ok es' =>
          obtain ⟨rfl, rfl, rfl⟩ := runs_lift.1 h6
          rw [List.append_nil]
          exact ⟨h5, rfl⟩
        | err g => obtain ⟨rfl, rfl, rfl⟩ := h6; rw [List.append_nil]; exact ⟨h5, rfl⟩
        | panic => obtain ⟨rfl, rfl, rfl⟩ := h6; rw [List.append_nil]; exact ⟨h5, rfl⟩
      · rw [if_neg (by rw [atLeast110_iff]; exact ha)] at h4
        obtain ⟨rfl, rfl, rfl⟩ := runs_lift.1 h4
        exact .inl ⟨ha, rfl, rfl, rfl⟩
    · obtain ⟨rfl, rfl, rfl⟩ := h4
      exact .inl ⟨hl, hp, by simp, rfl, rfl⟩

/-! ### C23 -/

/-- GC deletes every stale attachment of the network, in the order of the file names, and then, from version 1.1.0, asks every
plugin once, in order, giving it the valid attachments; failures stop neither. It succeeds iff nothing failed and otherwise
returns all the errors, in order, each with a description in front. (A DEL that panics ends the GC; see C24 and C50.) -/
theorem c23_gc (c : CNIConfig) (list : NetConfList) (valid : Option (List GCAttachment)) (hs : ∀ p ∈ list.plugins, Sound p)
    (hd : list.disableGC = false) (fs fs' : FS) (tr : Trace) (o : Out Unit)
    (h : Runs false (c.gcNetworkList list valid) fs tr fs' o) :
    ∃ names stale, Listed c fs (Stale list.name valid) names stale ∧
      ((∃ tr0 trd trg os gs, tr = tr0 ++ trd ++ trg ∧ tr0.execs = [] ∧ Dels false c list stale fs trd fs' os ∧
          (AtLeast list.cniVersion (1, 1, 0) → Asks c b!"GC" list.name list.cniVersion valid list.plugins trg gs) ∧
          (¬ AtLeast list.cniVersion (1, 1, 0) → trg = [] ∧ gs = []) ∧
          (o = .ok () ↔ (∀ x ∈ os, x = .ok ()) ∧ ∀ g ∈ gs, g = none) ∧
          (o = .ok () ∨ ∃ es, o = .err (.joined es) ∧ Wrapped (os.filterMap outFailure ++ gs.filterMap id) es)) ∨
        (o = .panic ∧ ∃ tr0 trd l os, tr = tr0 ++ trd ∧ tr0.execs = [] ∧ l <+: stale ∧ Dels false c list l fs trd fs' os ∧
          os.getLast? = some .panic)) := by
  obtain ⟨tr0, o0, h0, hx⟩ := gcNetworkList_runs hd h
  obtain ⟨-, hne, names, l0, rfl, hl0⟩ := c21_all c fs fs tr0 o0 h0
  obtain ⟨names', hl⟩ := hl0.filter (isStale list.name valid)
  simp only [isStale_iff] at hl
  refine ⟨names', _, hl, ?_⟩
  have fin : ∀ {gs es : List GoErr}, Wrapped gs es → (joinErrs es = .ok () ↔ gs = []) ∧
      (joinErrs es = .ok () ∨ ∃ es', joinErrs es = .err (.joined es') ∧ Wrapped gs es') := by
    intro gs es hw
    unfold joinErrs
    rw [← hw.nil_iff]
    split
    · simp [*]
    · exact ⟨by simp [*], .inr ⟨es, rfl, hw⟩⟩
  have osOk : ∀ {os : List (Out Unit)}, (∀ x ∈ os, x ≠ .panic) → (os.filterMap outFailure = [] ↔ ∀ x ∈ os, x = .ok ()) := by
    intro os hp
    rw [List.filterMap_eq_nil_iff]
    refine forall₂_congr fun x hx => ?_
    have := hp x hx
    cases x with
    | ok u => simp [outFailure]
    | err g => simp [outFailure]
    | panic => exact absurd rfl this
  have gsOk : ∀ {gs : List (Option GoErr)}, (gs.filterMap id = [] ↔ ∀ g ∈ gs, g = none) := by
    intro gs
    rw [List.filterMap_eq_nil_iff]
    rfl
  rcases hx with ⟨hno, -⟩ | ⟨atts, l, trd, os, fs1, he, hdl, hx⟩
  · exact absurd rfl (hno l0)
  · cases he
    rcases hx with ⟨hpre, hlast, rfl, rfl, rfl⟩ | ⟨rfl, hnp, trg, es, rfl, hw, hx⟩
    · exact .inr ⟨rfl, tr0, trd, l, os, rfl, hne, hpre, hdl, hlast⟩
    · left
      rcases hx with ⟨hv, rfl, rfl, rfl⟩ | ⟨hv, o1, hg, rfl⟩
      · refine ⟨tr0, trd, [], os, [], rfl, hne, hdl, fun h => absurd h hv, fun _ => ⟨rfl, rfl⟩, ?_, ?_⟩
        · rw [(fin hw).1, osOk hnp]; simp
        · simpa using (fin hw).2
      · obtain ⟨rfl, gs, es2, ha, rfl, hw2⟩ := gcLoop_runs hs hg
        refine ⟨tr0, trd, trg, os, gs, rfl, hne, hdl, fun _ => ha, fun h => absurd hv h, ?_, ?_⟩
        · show joinErrs (es ++ es2) = .ok () ↔ _
          rw [(fin (hw.append hw2)).1, List.append_eq_nil_iff, osOk hnp, gsOk]
        · exact (fin (hw.append hw2)).2

/-! ### C22 -/

/-- The only file a DEL can change is at the cache path of its attachment, and it can only remove it. -/
theorem del_changes {c : CNIConfig} {list : NetConfList} {rt : RuntimeConf} (hrt : rt.OK) {o : Out Unit}
    (h : Runs flt (c.delNetworkList list rt) fs tr fs' o) :
    fs' = fs ∨ ∃ p, c.cachePath list.name rt = .ok p ∧ fs' = fs.set p none := by
  have twice : ∀ {fs : FS} {p : Bytes}, (fs.set p none).set p none = fs.set p none := by
    intro fs p; funext q; unfold FS.set; split <;> rfl
  rcases delNetworkList_runs hrt h with ⟨_, _, rfl, _⟩ | ⟨_, _, rfl, _⟩ | ⟨prev, fs1, _, _, _, hfs, hprev⟩
  · exact .inl rfl
  · exact .inl rfl
  · have h1 : fs1 = fs ∨ ∃ p, c.cachePath list.name rt = .ok p ∧ fs1 = fs.set p none := by
      rcases hprev with ⟨_, _, _, rfl⟩ | ⟨_, tr1, o1, _, ⟨_, rfl⟩ | ⟨_, _, ⟨rfl, _⟩ | hp⟩⟩
      · exact .inl rfl
      · exact .inl rfl
      · exact .inl rfl
      · exact .inr hp
    rcases hfs with ⟨rfl, _⟩ | ⟨_, p, hp, rfl⟩
    · exact h1
    · rcases h1 with rfl | ⟨p', hp', rfl⟩
      · exact .inr ⟨p, hp, rfl⟩
      · rw [hp] at hp'
        cases hp'
        exact .inr ⟨p, hp, twice⟩

theorem dels_changes {c : CNIConfig} {list : NetConfList} {l : List Attachment} {os : List (Out Unit)}
    (h : Dels flt c list l fs tr fs' os) (hok : ∀ a ∈ l, (rtOf a).OK) (q : Bytes) (hq : fs' q ≠ fs q) :
    fs' q = none ∧ ∃ a ∈ l, c.cachePath list.name (rtOf a) = .ok q := by
  induction h with
  | nil => exact absurd rfl hq
  | @cons a l fs fs1 fs2 tr1 tr2 o os h hl ih =>
    by_cases h2 : fs2 q = fs1 q
    · rcases del_changes (hok a (by simp)) h with rfl | ⟨p, hp, rfl⟩
      · exact absurd h2 hq
      · by_cases he : q = p
        · subst he
          exact ⟨by rw [h2, FS.set_same], a, by simp, hp⟩
        · rw [FS.set_other _ _ he] at h2
          exact absurd h2 hq
    · obtain ⟨h3, a', ha', hp⟩ := ih (fun x hx => hok x (by simp [hx])) h2
      exact ⟨h3, a', by simp [ha'], hp⟩

theorem dels_execs {c : CNIConfig} {list : NetConfList} {l : List Attachment} {os : List (Out Unit)}
    (h : Dels flt c list l fs tr fs' os) (hok : ∀ a ∈ l, (rtOf a).OK) :
    ∀ e ∈ tr.execs, ∃ a ∈ l, ∃ p ∈ list.plugins, ∃ prev, Invoked c b!"DEL" list.name list.cniVersion (rtOf a) p prev tr e := by
  induction h with
  | nil => simp
  | @cons a l fs fs1 fs2 tr1 tr2 o os h hl ih =>
    intro e he
    rw [execs_append, List.mem_append] at he
    rcases he with he | he
    · have hsw : ∃ prev, Sweep c b!"DEL" list.name list.cniVersion (rtOf a) list.plugins.reverse prev tr1 := by
        rcases delNetworkList_runs (hok a (by simp)) h with ⟨_, rfl, _⟩ | ⟨_, hx, _⟩ | ⟨prev, _, hsw, _⟩
        · simp at he
        · rw [hx] at he; simp at he
        · exact ⟨prev, hsw⟩
      obtain ⟨prev, hsw⟩ := hsw
      obtain ⟨i, hi⟩ := List.mem_iff_getElem?.1 he
      obtain ⟨p, hp, hinv⟩ := hsw.invoked i e hi
      refine ⟨a, by simp, p, List.mem_reverse.1 (List.mem_of_getElem? hp), prev, ?_⟩
      simpa using hinv.mono (a := []) (d := tr2)
    · obtain ⟨a', ha', p, hp, prev, hinv⟩ := ih (fun x hx => hok x (by simp [hx])) e he
      exact ⟨a', by simp [ha'], p, hp, prev, by simpa using hinv.mono (a := tr1) (d := [])⟩

/-- The calls the GC loop can make. -/
theorem gcLoop_looks {c : CNIConfig} {name ver : Bytes} {valid : Option (List GCAttachment)} {ps : List PluginConfig} :
    ∀ {errs : List GoErr}, (c.gcLoop name ver valid ps errs).All fun a =>
      a.writes = none ∧ ∀ path stdin args, a = .exec path stdin args → args = .args (attachArgs c b!"GC" {}) ∧
        ∃ p ∈ ps, BareStdin p.bytes name ver valid stdin := by
  induction ps with
  | nil => intro errs; trivial
  | cons p ps ih =>
    intro errs
    unfold CNIConfig.gcLoop
    split
    · rename_i conf hconf
      refine Prog.All.bind (Prog.All.attempt ?_) fun r => ih.mono fun a h => ⟨h.1, fun x y z e => ⟨(h.2 x y z e).1, ?_⟩⟩
      rotate_left
      · obtain ⟨q, hq, hb⟩ := (h.2 x y z e).2
        exact ⟨q, List.mem_cons_of_mem _ hq, hb⟩
      unfold CNIConfig.bareNetwork1
      simp only [prog_bind_eq]
      refine Prog.All.bind ⟨⟨rfl, by simp⟩, fun r => by cases r <;> trivial⟩ fun path => ⟨⟨rfl, ?_⟩, fun r => by cases r <;> trivial⟩
      intro _ _ _ he
      cases he
      exact ⟨rfl, p, List.mem_cons_self .., inject_bare hconf⟩
    · trivial
    · trivial

theorem Trace.mem_execs {tr : Trace} {e : ExecEv} (h : e ∈ tr.execs) : ⟨.exec e.path e.stdin e.args, e.resp⟩ ∈ tr := by
  unfold Trace.execs at h
  obtain ⟨⟨a, r⟩, hm, he⟩ := List.mem_filterMap.1 h
  cases a with
  | exec p i a => simp only [Event.exec?, Option.some.injEq] at he; subst he; exact hm
  | _ => simp [Event.exec?] at he

/-- What a GC did. -/
theorem gc_parts {c : CNIConfig} {list : NetConfList} {valid : Option (List GCAttachment)} {o : Out Unit}
    (h : Runs flt (c.gcNetworkList list valid) fs tr fs' o) :
    (∀ e ∈ tr.execs, (∃ a, InCache c fs a ∧ Stale list.name valid a ∧ ∃ p ∈ list.plugins, ∃ prev,
        Invoked c b!"DEL" list.name list.cniVersion (rtOf a) p prev tr e) ∨
      (AtLeast list.cniVersion (1, 1, 0) ∧ ∃ p ∈ list.plugins, GCInvoked c list.name list.cniVersion valid p e)) ∧
    ∀ q, fs' q ≠ fs q → fs' q = none ∧ ∃ a, InCache c fs a ∧ Stale list.name valid a ∧ c.cachePath list.name (rtOf a) = .ok q := by
  cases hd : list.disableGC with
  | true =>
    unfold CNIConfig.gcNetworkList at h
    rw [hd, if_pos rfl] at h
    obtain ⟨rfl, rfl, rfl⟩ := runs_done.1 h
    exact ⟨by simp, fun q hq => absurd rfl hq⟩
  | false =>
    obtain ⟨tr0, o0, h0, hx⟩ := gcNetworkList_runs hd h
    obtain ⟨-, hne, -, hmem⟩ := getCachedAttachments_mem h0
    rcases hx with ⟨-, rfl, rfl, -⟩ | ⟨atts, l, trd, os, fs1, rfl, hdl, hx⟩
    · exact ⟨by simp [hne], fun q hq => absurd rfl hq⟩
    · have hsub : ∀ a ∈ l, InCache c fs a ∧ Stale list.name valid a := by
        intro a ha
        have : a ∈ atts.filter (isStale list.name valid) := by
          rcases hx with ⟨hpre, _⟩ | ⟨rfl, _⟩
          · exact hpre.subset ha
          · exact ha
        rw [List.mem_filter, isStale_iff] at this
        exact ⟨hmem atts rfl a this.1, this.2⟩
      have hok : ∀ a ∈ l, (rtOf a).OK := by
        intro a ha
        obtain ⟨⟨n, -, hn⟩, -⟩ := hsub a ha
        exact (attachmentIn_ok hn).1
      have hfs : fs' = fs1 ∧ ∃ trg, tr = tr0 ++ trd ++ trg ∧ ∀ e ∈ trg.execs,
          AtLeast list.cniVersion (1, 1, 0) ∧ ∃ p ∈ list.plugins, GCInvoked c list.name list.cniVersion valid p e := by
        rcases hx with ⟨_, _, rfl, rfl, _⟩ | ⟨_, _, trg, es, rfl, _, ⟨_, rfl, rfl, _⟩ | ⟨hat, o1, hg, _⟩⟩
        · exact ⟨rfl, [], by simp, by simp⟩
        · exact ⟨rfl, [], rfl, by simp⟩
        · refine ⟨(gcLoop_looks.mono fun _ h => h.1).readonly hg, trg, rfl, fun e he => ?_⟩
          obtain ⟨ha, p, hp, hb⟩ := (gcLoop_looks.runs hg _ (Trace.mem_execs he)).2 _ _ _ rfl
          exact ⟨hat, p, hp, ha, hb⟩
      obtain ⟨rfl, trg, rfl, hg⟩ := hfs
      constructor
      · intro e he
        rw [execs_append, execs_append, hne, List.nil_append, List.mem_append] at he
        rcases he with he | he
        · obtain ⟨a, ha, p, hp, prev, hinv⟩ := dels_execs hdl hok e he
          exact .inl ⟨a, (hsub a ha).1, (hsub a ha).2, p, hp, prev, hinv.mono⟩
        · exact .inr (hg e he)
      · intro q hq
        obtain ⟨h1, a, ha, hp⟩ := dels_changes hdl hok q hq
        exact ⟨h1, a, (hsub a ha).1, (hsub a ha).2, hp⟩

/-- Everything GC executes is a DEL of a plugin of the list for a stale attachment in the cache, or, from version 1.1.0, a GC of
a plugin of the list. -/
theorem c22_execs (c : CNIConfig) (list : NetConfList) (valid : Option (List GCAttachment)) (fs fs' : FS) (tr : Trace) (o : Out Unit)
    (h : Runs flt (c.gcNetworkList list valid) fs tr fs' o) :
    ∀ e ∈ tr.execs, (∃ a, InCache c fs a ∧ Stale list.name valid a ∧ ∃ p ∈ list.plugins, ∃ prev,
        Invoked c b!"DEL" list.name list.cniVersion (rtOf a) p prev tr e) ∨
      (AtLeast list.cniVersion (1, 1, 0) ∧ ∃ p ∈ list.plugins, GCInvoked c list.name list.cniVersion valid p e) := (gc_parts h).1

/-- So no DEL is executed for a valid attachment. -/
theorem c22_valid_not_deleted (c : CNIConfig) (list : NetConfList) (valid : List GCAttachment) (fs fs' : FS) (tr : Trace) (o : Out Unit)
    (h : Runs flt (c.gcNetworkList list (some valid)) fs tr fs' o) (e : ExecEv) (he : e ∈ tr.execs) (rt : RuntimeConf)
    (ha : e.args = .args (attachArgs c b!"DEL" rt)) (g : GCAttachment) (hg : g ∈ valid) :
    ¬ (rt.containerID = g.containerID ∧ rt.ifName = g.ifName) := by
  rintro ⟨h1, h2⟩
  rcases (gc_parts h).1 e he with ⟨a, -, hst, p, -, prev, hinv⟩ | ⟨-, -, -, hgc, -⟩
  · have := ha.symm.trans hinv.args
    simp only [PArgs.args.injEq, attachArgs, Args.mk.injEq, rtOf] at this
    exact hst.2 valid rfl g hg ⟨h1.symm.trans (by simp [this]), h2.symm.trans (by simp [this])⟩
  · have := ha.symm.trans hgc
    simp only [PArgs.args.injEq, attachArgs, Args.mk.injEq] at this
    exact absurd this.1 (by decide)

/-- An entry in the file of its own name is at the cache path of its attachment. -/
theorem cachePath_own {c : CNIConfig} {n p : Bytes} {a : Attachment} (hn : IsComp n)
    (ho : n = a.network ++ b!"-" ++ a.containerID ++ b!"-" ++ a.ifName) (h : c.cachePath a.network (rtOf a) = .ok p) :
    p = childPath (resultsDir c) n := by
  obtain ⟨h1, h2, h3⟩ := cachePath_nonempty h
  have hs : 47 ∉ n := hn.2.2.2
  rw [ho] at hs
  simp only [List.mem_append, not_or] at hs
  have hpl : PlainNames a.network (rtOf a) := ⟨⟨h1, hs.1.1.1.1⟩, ⟨h2, hs.1.1.2⟩, ⟨h3, hs.2⟩⟩
  rw [cachePath_eq hpl] at h
  cases h
  rw [ho]
  rfl

/-- GC changes no file except that it removes entries of stale attachments (when the entries are in the files where ADD puts
them): the entries of valid attachments and of other networks stay as they are. -/
theorem c22_files (c : CNIConfig) (list : NetConfList) (valid : Option (List GCAttachment)) (fs fs' : FS) (tr : Trace) (o : Out Unit)
    (h : Runs flt (c.gcNetworkList list valid) fs tr fs' o) (hw : OwnNamed c fs) (q : Bytes) (hq : fs' q ≠ fs q) :
    fs' q = none ∧ ∃ n a, IsComp n ∧ q = childPath (resultsDir c) n ∧ attachmentIn c fs n = some a ∧ Stale list.name valid a := by
  obtain ⟨h1, a, ⟨n, hn, ha⟩, hst, hp⟩ := (gc_parts h).2 q hq
  rw [← hst.1] at hp
  exact ⟨h1, n, a, hn, cachePath_own hn (hw n a hn ha) hp, ha, hst⟩

/-- So an entry that is not stale is kept. -/
theorem c22_kept (c : CNIConfig) (list : NetConfList) (valid : Option (List GCAttachment)) (fs fs' : FS) (tr : Trace) (o : Out Unit)
    (h : Runs flt (c.gcNetworkList list valid) fs tr fs' o) (hw : OwnNamed c fs) (n : Bytes) (a : Attachment)
    (ha : attachmentIn c fs n = some a)
    (hk : a.network ≠ list.name ∨ ∃ l g, valid = some l ∧ g ∈ l ∧ g.containerID = a.containerID ∧ g.ifName = a.ifName) :
    fs' (childPath (resultsDir c) n) = fs (childPath (resultsDir c) n) ∧ attachmentIn c fs' n = some a := by
  have hns : ¬ Stale list.name valid a := by
    rintro ⟨h1, h2⟩
    rcases hk with hk | ⟨l, g, hl, hg, hx⟩
    · exact hk h1
    · exact h2 l hl g hg hx
  have key : fs' (childPath (resultsDir c) n) = fs (childPath (resultsDir c) n) := by
    refine Classical.byContradiction fun hq => ?_
    obtain ⟨-, n', a', -, he, ha', hst⟩ := c22_files c list valid fs fs' tr o h hw _ hq
    rw [← childPath_inj he, ha] at ha'
    cases ha'
    exact hns hst
  exact ⟨key, by unfold attachmentIn at ha ⊢; rw [key]; exact ha⟩

/-- With `disableGC` nothing is executed or changed. -/
theorem c22_disabled (c : CNIConfig) (list : NetConfList) (valid : Option (List GCAttachment)) (hd : list.disableGC = true)
    (fs fs' : FS) (tr : Trace) (o : Out Unit) (h : Runs flt (c.gcNetworkList list valid) fs tr fs' o) :
    tr = [] ∧ fs' = fs ∧ o = .ok () := by
  unfold CNIConfig.gcNetworkList at h
  rw [hd, if_pos rfl] at h
  exact runs_done.1 h

/-- A cache populated through the API has its entries in the files of their own names (interface names being UTF-8; others
are stored in the entry with replacement characters). -/
theorem c22_history (c : CNIConfig) (h : List (ApiOp × Out Reply)) (fs fs' : FS) (hh : History h fs fs') (hp : ∀ x ∈ h, x.1.Proper)
    (hl : ∀ x ∈ h, ∀ c l rt, x.1 = .add c l rt → l.plugins ≠ [])
    (hu : ∀ x ∈ h, x.1.added ≠ none → isUtf8 x.1.rt.ifName = true) (h0 : OwnNamed c fs) : OwnNamed c fs' := by
  induction hh with
  | nil => exact h0
  | cons h1 h2 ih =>
    refine ih (fun x hx => hp x (by simp [hx])) (fun x hx => hl x (by simp [hx])) (fun x hx => hu x (by simp [hx])) ?_
    refine named_step (P := fun n a => n = a.network ++ b!"-" ++ a.containerID ++ b!"-" ++ a.ifName) (hp _ (List.mem_cons_self ..))
      (hl _ (List.mem_cons_self ..)) (fun a had v1 v2 hpl e1 e2 e3 => ?_) h1 h0
    rw [e1, e2, e3, sanitize_of_isUtf8 (hu _ (List.mem_cons_self ..) had)]
    rfl

/-- A way to show that a configuration is sound. -/
theorem sound_intro {p : PluginConfig} {ms m : List (Bytes × Json)} {c : PluginConf} (h1 : Json.parse p.bytes = some (.obj ms))
    (h2 : Json.toAnyMembers ms = some m) (h3 : decPluginConf (.obj (GoMap.ofList m)) = some c) (h4 : c.type = p.network.type)
    (h5 : c.type ≠ []) : Sound p :=
  ⟨ms, GoMap.ofList m, c, h1, (members_inRange (Json.parse_WF h1)).1 ⟨m, h2⟩, injected_insertAll (kvs := []) h2 (by simp), h3, h4, h5⟩

/-! ### examples -/

namespace Example

/-- A list of version 1.1.0. -/
def list11 : NetConfList := { list with cniVersion := b!"1.1.0" }

/-- The plugins of the examples meet the hypothesis of C23. -/
theorem list11_sound : ∀ p ∈ list11.plugins, Sound p := by
  have ha : Sound plugA := sound_intro (ms := [(b!"type", .str b!"a"), (b!"x", .num b!"1")])
    (m := [(b!"type", .str b!"a"), (b!"x", .num b!"1")]) (c := { type := b!"a" })
    (by decide +kernel) (by decide +kernel) (by decide +kernel) (by decide +kernel) (by decide +kernel)
  have hb : Sound plugB := sound_intro (ms := [(b!"type", .str b!"b")]) (m := [(b!"type", .str b!"b")]) (c := { type := b!"b" })
    (by decide +kernel) (by decide +kernel) (by decide +kernel) (by decide +kernel) (by decide +kernel)
  intro p hp
  simp only [list11, list, List.mem_cons, List.not_mem_nil, or_false] at hp
  rcases hp with rfl | rfl
  · exact ha
  · exact hb

/-- The entry of the examples is not valid: it is deleted, and both plugins are asked to collect garbage. -/
example : ∃ tr fs' o, Runs false (cfg.gcNetworkList list11 (some [⟨b!"c2", b!"eth0"⟩])) oneFile tr fs' o ∧
    (tr.execs.map (fun e => (e.path, e.stdin)), fs' key, o.toOption) =
      ([(b!"/bin/b", b!"{\"cniVersion\":\"1.1.0\",\"name\":\"net\",\"prevResult\":{\"cniVersion\":\"1.1.0\",\"dns\":{\"domain\":\"d\"}},\"type\":\"b\"}"),
        (b!"/bin/a", b!"{\"cniVersion\":\"1.1.0\",\"name\":\"net\",\"prevResult\":{\"cniVersion\":\"1.1.0\",\"dns\":{\"domain\":\"d\"}},\"type\":\"a\",\"x\":1}"),
        (b!"/bin/a", b!"{\"cni.dev/attachments\":[{\"containerID\":\"c2\",\"ifname\":\"eth0\"}],\"cni.dev/valid-attachments\":[{\"containerID\":\"c2\",\"ifname\":\"eth0\"}],\"cniVersion\":\"1.1.0\",\"name\":\"net\",\"type\":\"a\",\"x\":1}"),
        (b!"/bin/b", b!"{\"cni.dev/attachments\":[{\"containerID\":\"c2\",\"ifname\":\"eth0\"}],\"cni.dev/valid-attachments\":[{\"containerID\":\"c2\",\"ifname\":\"eth0\"}],\"cniVersion\":\"1.1.0\",\"name\":\"net\",\"type\":\"b\"}")],
        none, some ()) :=
  Prog.afterDir_exists (find := find) (exec := good) (Example.lists _)
    (fun tr fs' o => (tr.execs.map (fun e => (e.path, e.stdin)), fs' key, o.toOption)) (by decide +kernel) (fun _ _ _ _ => rfl)

/-- It is valid: only the plugins are asked. Nothing is deleted. -/
example : ∃ tr fs' o, Runs false (cfg.gcNetworkList list11 (some [⟨b!"c1", b!"eth0"⟩])) oneFile tr fs' o ∧
    (tr.execs.map (fun e => e.path), fs' key, o.toOption) = ([b!"/bin/a", b!"/bin/b"], some entry, some ()) :=
  Prog.afterDir_exists (find := find) (exec := good) (Example.lists _)
    (fun tr fs' o => (tr.execs.map (fun e => e.path), fs' key, o.toOption)) (by decide +kernel) (fun _ _ _ _ => rfl)

/-- The hypothesis of `c22_kept`: it holds with no entries, and with the one entry. -/
example : OwnNamed cfg noFiles := fun n a _ h => by cases h
theorem oneFile_own : OwnNamed cfg oneFile := by
  intro n a hn h
  have hd : resultsDir cfg = b!"/cache/results" := by decide +kernel
  unfold attachmentIn oneFile at h
  rw [hd] at h
  by_cases he : childPath b!"/cache/results" n = key
  · have hnn : n = b!"net-c1-eth0" := childPath_inj (he.trans (by decide +kernel : _ = childPath b!"/cache/results" b!"net-c1-eth0"))
    rw [he, FS.set_same] at h
    have hc : (entryOf entry).map (fun a => (a.network, a.containerID, a.ifName)) = some (b!"net", b!"c1", b!"eth0") := by decide +kernel
    rw [Option.bind_some] at h
    rw [h] at hc
    simp only [Option.map_some, Option.some.injEq, Prod.mk.injEq] at hc
    rw [hnn, hc.1, hc.2.1, hc.2.2]
    decide
  · rw [FS.set_other _ _ he] at h
    cases h

end Example

end Verif
