/- C10, C11, C52: up-converting a single configuration; looking a network up in a directory; plugin folders. -/
import Verif.Props.Conf

namespace Verif
open Spec
set_option linter.unusedSimpArgs false

/-! ### C10 -/

theorem fieldStr_utf8 {ms : List (Bytes × Json)} (hw : (Json.obj ms).WF) {names : List Bytes} {f s : Bytes}
    (h : decAll decStr [] (getField names f ms) = some s) : isUtf8 s = true := by
  refine decAll_inv (P := fun r => isUtf8 r = true) (Q := Json.WF) ?_ (i := []) rfl ?_ h
  · intro c v r hc hv hr
    cases v <;> simp [decStr] at hr
    · subst hr; exact hc
    · subst hr; simpa [Json.WF] using hv
  · intro v hv
    obtain ⟨k, hk, _⟩ := mem_getField.1 hv
    simp only [Json.WF] at hw
    exact (WFMembers_iff.1 hw _ hk).2

theorem decPluginConf_cniVersion {ms : List (Bytes × Json)} {c : PluginConf} (h : decPluginConf (.obj ms) = some c) :
    decAll decStr [] (getField pluginConfFields b!"cniVersion" ms) = some c.cniVersion := by
  simp only [decPluginConf, structMembers, Option.bind_eq_bind, Option.bind_some, Option.bind_eq_some_iff] at h
  obtain ⟨a, ha, _, _, _, _, _, _, _, _, _, _, _, _, _, _, h⟩ := h
  simp only [Option.some.injEq] at h
  subst h
  exact ha

/-- The document `ConfListFromConf` writes. -/
def upDoc (name ver : Bytes) (M : List (Bytes × Json)) : List (Bytes × Json) :=
  [(b!"cniVersion", .str ver), (b!"name", .str name), (b!"plugins", .arr [.obj M])]

theorem upDoc_eq (name ver : Bytes) (M : List (Bytes × Json)) :
    GoMap.ofList [(b!"name", Json.str name), (b!"cniVersion", .str ver), (b!"plugins", .arr [.obj M])] = upDoc name ver M := by
  rfl

theorem upDoc_last {name ver : Bytes} {M : List (Bytes × Json)} :
    LastMember (upDoc name ver M) b!"name" (.str name) ∧ LastMember (upDoc name ver M) b!"cniVersion" (.str ver) ∧
    LastMember (upDoc name ver M) b!"plugins" (.arr [.obj M]) ∧ NoMember (upDoc name ver M) b!"cniVersions" ∧
    NoMember (upDoc name ver M) b!"disableCheck" ∧ NoMember (upDoc name ver M) b!"disableGC" ∧
    NoMember (upDoc name ver M) b!"loadOnlyInlinedPlugins" := by
  simp only [lastMember_iff, noMember_iff]
  refine ⟨rfl, rfl, rfl, rfl, rfl, rfl, rfl⟩

theorem flag_absent {ms : List (Bytes × Json)} {k : Bytes} {f : Bool} (hn : NoMember ms k) (h : FlagIs ms k f) : f = false := by
  rcases h with h | h | ⟨s, h, _⟩
  · exact h.2
  · exact absurd hn (lastMember_not_noMember h)
  · exact absurd hn (lastMember_not_noMember h)

/-- A loaded configuration is an object. -/
theorem loaded_obj {b : Bytes} {orig : PluginConfig} (h : pluginConfFromBytes b = .ok orig) :
    orig.bytes = b ∧ orig.network.type ≠ [] ∧ ∃ ms, Json.parse b = some (.obj ms) ∧ decPluginConf (.obj ms) = some orig.network := by
  obtain ⟨hb, ht, j, hj, hc⟩ := pluginConfFromBytes_ok h
  refine ⟨hb, ht, ?_⟩
  cases j with
  | obj ms => exact ⟨ms, hj, hc⟩
  | null =>
    have : decPluginConf .null = some {} := by decide
    rw [this, Option.some.injEq] at hc
    rw [← hc] at ht; exact absurd rfl ht
  | _ => simp [decPluginConf, structMembers] at hc

theorem toAnyMembers_normal {l : List (Bytes × Json)} (h : ∀ x ∈ l, x.2.toAny = some x.2) : Json.toAnyMembers l = some l := by
  induction l with
  | nil => rfl
  | cons x l ih =>
    obtain ⟨k, v⟩ := x
    have h1 := h (k, v) (by simp)
    simp only at h1
    simp [Json.toAnyMembers, h1, ih fun y hy => h y (by simp [hy])]

theorem upconvert_doc {b : Bytes} {orig : PluginConfig} {ms m : List (Bytes × Json)} (h : pluginConfFromBytes b = .ok orig)
    (hp : Json.parse b = some (.obj ms)) (hm : Json.toAnyMembers ms = some m) :
    ∃ D, confListFromConf orig = networkConfFromBytes D ∧
      Json.parse D = some (.obj (upDoc orig.network.name orig.network.cniVersion (GoMap.ofList m))) ∧
      Json.toAnyMembers (upDoc orig.network.name orig.network.cniVersion (GoMap.ofList m))
        = some (upDoc orig.network.name orig.network.cniVersion (GoMap.ofList m)) ∧
      Json.toAnyMembers (GoMap.ofList m) = some (GoMap.ofList m) := by
  obtain ⟨hb, ht, ms', hp', hc⟩ := loaded_obj h
  rw [hp] at hp'; cases hp'
  have hw := Json.parse_WF hp
  have ha : (Json.obj ms).toAny = some (.obj (GoMap.ofList m)) := by simp [Json.toAny, hm]
  have hi := Json.toAny_idem _ _ ha
  have hwm := Json.toAny_WF _ _ hw ha
  refine ⟨(Json.obj (upDoc orig.network.name orig.network.cniVersion (GoMap.ofList m))).print, ?_, ?_, ?_, ?_⟩
  · simp only [confListFromConf, hb, hp, rawMap_obj, hm, Option.map_some, mapJson, upDoc_eq]
  · apply Json.parse_print
    have h1 := fieldStr_utf8 hw (decPluginConf_name hc)
    have h2 := fieldStr_utf8 hw (decPluginConf_cniVersion hc)
    simp only [Json.WF, upDoc, Json.WFMembers, Json.WFList, h1, h2, hwm, and_true, true_and]
    refine ⟨by decide, by decide, by decide, ?_⟩
    simpa only [Json.WF] using hwm
  · have hi' : (Json.obj (GoMap.ofList m)).toAny = some (.obj (GoMap.ofList m)) := hi
    exact toAnyMembers_normal (by
      intro x hx
      simp only [upDoc, List.mem_cons, List.not_mem_nil, or_false] at hx
      rcases hx with rfl | rfl | rfl
      · rfl
      · rfl
      · simp only [Json.toAny, Json.toAnyList] at hi' ⊢; rw [hi']; rfl)
  · exact toAnyMembers_normal fun x hx => Json.toAnyMembers_idem _ _ hm x (ofList_mem x hx)

/-- C10: the list made from a loaded single configuration has its name and version, no flags, and exactly one plugin, whose
configuration is the same object (as Go decodes it: last duplicate, numbers through float64). -/
theorem c10_upconvert (b : Bytes) (orig : PluginConfig) (ms : List (Bytes × Json)) (L : NetConfList)
    (h : pluginConfFromBytes b = .ok orig) (hp : Json.parse b = some (.obj ms)) (hL : confListFromConf orig = .ok L) :
    L.name = orig.network.name ∧ L.cniVersion = orig.network.cniVersion ∧ L.disableCheck = false ∧ L.disableGC = false ∧
    ∃ p, L.plugins = [p] ∧ PluginLoads (.obj ms) p := by
  obtain ⟨hb, ht, ms', hp', hc⟩ := loaded_obj h
  rw [hp] at hp'; cases hp'
  cases hm : Json.toAnyMembers ms with
  | none => simp [confListFromConf, hb, hp, rawMap_obj, hm] at hL
  | some m =>
    obtain ⟨D, e, hD, hDa, hMa⟩ := upconvert_doc h hp hm
    rw [e] at hL
    obtain ⟨ms2, hp2, _, h1, h2, h3, h4, h5, _, h6⟩ := c09_loaded _ versionSorter_insertion D L hL
    rw [hD] at hp2; cases hp2
    obtain ⟨u1, u2, u3, u4, u5, u6, u7⟩ := upDoc_last (name := orig.network.name) (ver := orig.network.cniVersion) (M := GoMap.ofList m)
    refine ⟨?_, ?_, flag_absent u5 h3, flag_absent u6 h4, ?_⟩
    · have := lastMember_unique h1 u1; simpa using this
    · obtain ⟨cv, hcv, hs⟩ := h2
      have ecv : cv = orig.network.cniVersion := by
        rcases hcv with hcv | ⟨hno, _⟩
        · have := lastMember_unique hcv u2; simpa using this
        · exact absurd hno (lastMember_not_noMember u2)
      rcases hs with ⟨_, e⟩ | ⟨vs, hv, _⟩
      · rw [e, ecv]
      · exact absurd u4 (lastMember_not_noMember hv)
    · rcases h6 with ⟨hno, _⟩ | ⟨l, hl, _, hlen, hall⟩
      · exact absurd hno (lastMember_not_noMember u3)
      · have el := lastMember_unique hl u3
        simp only [Json.arr.injEq] at el
        subst el
        match hps : L.plugins, hlen with
        | [p], _ =>
          refine ⟨p, rfl, ?_⟩
          have := hall 0 (by simp) (by rw [hps]; simp)
          simp only [List.getElem_cons_zero, hps] at this
          obtain ⟨M1, M2, e1, hb2, hinj, hd, hty⟩ := this
          simp only [Json.obj.injEq] at e1
          subst e1
          have e2 := injected_unique hinj (injected_insertAll (kvs := []) hMa (by simp))
          have e3 : GoMap.ofList (GoMap.ofList m) = GoMap.ofList m := GoMap.ofList_of_sorted (GoMap.sorted_ofList m)
          have e4 : M2 = GoMap.ofList m := by rw [e2]; exact e3
          refine ⟨ms, M2, rfl, hb2, ?_, hd, hty⟩
          rw [e4]
          exact injected_insertAll (kvs := []) hm (by simp)

/-- C10: the conversion succeeds exactly if the document's numbers are in range of float64 and the configuration, reduced to
the last of any duplicate members, still loads. -/
theorem c10_succeeds_iff (b : Bytes) (orig : PluginConfig) (ms : List (Bytes × Json))
    (h : pluginConfFromBytes b = .ok orig) (hp : Json.parse b = some (.obj ms)) :
    (∃ L, confListFromConf orig = .ok L) ↔ InRange (.obj ms) ∧ ∃ p, PluginLoads (.obj ms) p := by
  rw [← members_inRange (Json.parse_WF hp)]
  constructor
  · rintro ⟨L, hL⟩
    obtain ⟨_, _, _, _, p, _, hpl⟩ := c10_upconvert b orig ms L h hp hL
    refine ⟨?_, p, hpl⟩
    cases hm : Json.toAnyMembers ms with
    | none =>
      obtain ⟨hb, _⟩ := loaded_obj h
      simp [confListFromConf, hb, hp, rawMap_obj, hm] at hL
    | some m => exact ⟨m, rfl⟩
  · rintro ⟨⟨m, hm⟩, p, ms', M, e0, hb, hinj, hd, hty⟩
    simp only [Json.obj.injEq] at e0
    subst e0
    obtain ⟨D, e, hD, hDa, hMa⟩ := upconvert_doc h hp hm
    rw [e]
    have eM : M = GoMap.ofList m := injected_unique hinj (injected_insertAll (kvs := []) hm (by simp))
    obtain ⟨u1, u2, u3, u4, u5, u6, u7⟩ := upDoc_last (name := orig.network.name) (ver := orig.network.cniVersion) (M := GoMap.ofList m)
    refine (c09_loads_iff _ versionSorter_insertion D).2
      ⟨{ name := orig.network.name, cniVersion := orig.network.cniVersion, plugins := [p], bytes := D },
        _, hD, (members_inRange (Json.parse_WF hD)).1 ⟨_, hDa⟩, u1, ⟨_, Or.inl u2, Or.inl ⟨u4, rfl⟩⟩, Or.inl ⟨u5, rfl⟩, Or.inl ⟨u6, rfl⟩, Or.inl ⟨u7, rfl⟩, rfl,
        Or.inr ⟨_, u3, by simp, rfl, ?_⟩⟩
    intro i hi _
    match i, hi with
    | 0, _ =>
      refine ⟨GoMap.ofList m, M, rfl, hb, ?_, hd, hty⟩
      rw [eM]
      have := injected_insertAll (kvs := []) hMa (by simp)
      have e3 : GoMap.ofList (GoMap.ofList m) = GoMap.ofList m := GoMap.ofList_of_sorted (GoMap.sorted_ofList m)
      have e4 : GoMap.insertAll (GoMap.ofList (GoMap.ofList m)) (cleanVals []) = GoMap.ofList m := e3
      rwa [e4] at this

/-- C10: in particular it succeeds if the numbers are in range and `type` is stated once (in any capitalisation). -/
theorem c10_succeeds (b : Bytes) (orig : PluginConfig) (ms : List (Bytes × Json))
    (h : pluginConfFromBytes b = .ok orig) (hp : Json.parse b = some (.obj ms)) (hr : InRange (.obj ms))
    (ht : (getField pluginConfFields b!"type" ms).length ≤ 1) : ∃ L, confListFromConf orig = .ok L := by
  obtain ⟨hb, hty, ms', hp', hc⟩ := loaded_obj h
  rw [hp] at hp'; cases hp'
  have hw := Json.parse_WF hp
  obtain ⟨m, hm⟩ := (members_inRange hw).2 hr
  refine (c10_succeeds_iff b orig ms h hp).2 ⟨hr, ?_⟩
  obtain ⟨c', hc'⟩ := Option.isSome_iff_exists.1 (decPluginConf_normal hm (by rw [hc]; rfl))
  refine ⟨{ network := c', bytes := (Json.obj (GoMap.ofList m)).print }, ms, GoMap.ofList m, rfl,
    Json.parse_print _ (ofList_WF hw hm), injected_insertAll (kvs := []) hm (by simp), hc', ?_⟩
  have h1 := decPluginConf_type hc
  have h2 := decPluginConf_type hc'
  show c'.type ≠ []
  rcases getField_toAny_one (names := pluginConfFields) (f := b!"type") hm with ⟨e1, e2⟩ | ⟨v, w, e1, e2, hvw⟩ | hlt
  · rw [e1] at h1
    simp only [decAll_nil, Option.some.injEq] at h1
    exact absurd h1.symm hty
  · rw [getField_ofList (by rw [e2]; simp), e2] at h2
    rw [e1] at h1
    have : w = v := by
      cases v <;> simp [decAll_cons, decStr] at h1 <;> simp [Json.toAny] at hvw <;> exact hvw.symm
    rw [this, h1] at h2
    rw [← Option.some.inj h2]; exact hty
  · omega

/-- A configuration with a duplicate member and a nested object up-converts. -/
example : (((pluginConfFromBytes b!"{\"name\":\"x\",\"name\":\"n\",\"cniVersion\":\"0.4.0\",\"type\":\"t\",\"k\":{\"b\":1,\"a\":[]}}" >>= confListFromConf).toOption).map
      fun L => (L.name, L.cniVersion, L.plugins.map (·.bytes)))
    = some (b!"n", b!"0.4.0", [b!"{\"cniVersion\":\"0.4.0\",\"k\":{\"a\":[],\"b\":1},\"name\":\"n\",\"type\":\"t\"}"]) := by
  decide +kernel

theorem confListFromConf_no_panic (c : PluginConfig) : confListFromConf c ≠ .panic := by
  unfold confListFromConf
  split
  · simp
  · split
    · simp
    · exact c09_no_panic _ _

/-- The hypotheses of `c10_succeeds` are needed: a configuration can load and not up-convert, when a number is out of
range or when the type is taken from a different duplicate. -/
theorem c10_may_fail :
    (∃ orig, pluginConfFromBytes b!"{\"type\":\"t\",\"k\":1e999}" = .ok orig ∧ ∃ e, confListFromConf orig = .err e) ∧
    (∃ orig, pluginConfFromBytes b!"{\"type\":\"\",\"Type\":\"t\"}" = .ok orig ∧ ∃ e, confListFromConf orig = .err e) := by
  have ok : ∀ {o : Out PluginConfig} {a : PluginConfig}, o.toOption = some a → o = .ok a := by
    intro o a h; cases o <;> simp [Out.toOption] at h; rw [h]
  have bad : ∀ {c : PluginConfig}, (confListFromConf c).toOption = none → ∃ e, confListFromConf c = .err e := by
    intro c h
    cases hc : confListFromConf c with
    | ok L => rw [hc] at h; simp [Out.toOption] at h
    | err e => exact ⟨e, rfl⟩
    | panic => exact absurd hc (confListFromConf_no_panic c)
  constructor
  · exact ⟨{ network := { type := b!"t" }, bytes := b!"{\"type\":\"t\",\"k\":1e999}" }, ok (by decide +kernel), bad (by decide +kernel)⟩
  · exact ⟨{ network := { type := b!"t" }, bytes := b!"{\"type\":\"\",\"Type\":\"t\"}" }, ok (by decide +kernel), bad (by decide +kernel)⟩

/-! ### listings -/

theorem filter_contains_two (exts : List Bytes) (hd : exts.Nodup) (x p : Bytes) :
    (exts.filter fun e => x = e).map (fun _ => p) = if exts.contains x then [p] else [] := by
  induction exts with
  | nil => rfl
  | cons e exts ih =>
    rw [List.nodup_cons] at hd
    have := ih hd.2
    by_cases h : x = e
    · subst h
      have hn : exts.filter (fun e => x = e) = [] := by
        rw [List.filter_eq_nil_iff]; intro a ha; simp; rintro rfl; exact hd.1 ha
      simp [hn]
    · have h' : ¬ e = x := fun q => h q.symm
      simp only [List.filter_cons, decide_eq_true_eq, h, if_false, List.contains_cons]
      rw [this]
      simp [h]

theorem confFiles_entries (exts : List Bytes) (hd : exts.Nodup) (dir : Bytes) (l : List (Bytes × Bool)) :
    (l.flatMap fun f => if f.2 then [] else (exts.filter fun e => extPath f.1 = e).map fun _ => joinPath dir f.1)
      = (l.filter fun e => !e.2 && exts.contains (extPath e.1)).map fun e => joinPath dir e.1 := by
  induction l with
  | nil => rfl
  | cons f l ih =>
    rw [List.flatMap_cons, ih, filter_contains_two exts hd]
    rw [List.filter_cons]
    cases hf : f.2 <;> cases hc : exts.contains (extPath f.1) <;> simp only [Bool.not_false, Bool.not_true, Bool.true_and, Bool.false_and, if_true, if_false, Bool.false_eq_true, List.nil_append, List.map_cons, List.singleton_append]

/-- The sorted files `ConfFiles` gives are the ones the directory offers. -/
theorem confFiles_offers {fs : ConfFS} {dir : Bytes} {exts files : List Bytes} (hd : exts.Nodup)
    (h : confFiles fs dir exts = .ok files) : Offers fs dir exts (sortStrings files) := by
  unfold confFiles ConfFS.osReadDir at h
  cases hr : fs.readDir dir with
  | error e =>
    rw [hr] at h
    cases e with
    | true => simp only [Out.ok.injEq] at h; subst h; exact Or.inl ⟨hr, rfl⟩
    | false => simp at h
  | ok l =>
    rw [hr] at h
    simp only [Out.ok.injEq] at h
    rw [confFiles_entries exts hd] at h
    subst h
    refine Or.inr ⟨l, hr, ?_, sortStrings_sorted _⟩
    exact (sortStrings_perm _).trans (((sortBy_perm _ _).filter _).map _)

/-- What a directory offers is determined. -/
theorem offers_unique {fs : ConfFS} {dir : Bytes} {exts f1 f2 : List Bytes} (h1 : Offers fs dir exts f1) (h2 : Offers fs dir exts f2) :
    f1 = f2 := by
  rcases h1 with ⟨e1, rfl⟩ | ⟨l1, e1, p1, s1⟩ <;> rcases h2 with ⟨e2, rfl⟩ | ⟨l2, e2, p2, s2⟩
  · rfl
  · rw [e1] at e2; cases e2
  · rw [e1] at e2; cases e2
  · rw [e1] at e2; cases e2
    exact sorted_perm_unique (p1.trans p2.symm) (fun _ _ _ _ a b => bytesLe_antisymm a b) s1 s2

theorem confFiles_total {fs : ConfFS} {dir : Bytes} {exts : List Bytes} (h : fs.readDir dir ≠ .error false) :
    ∃ files, confFiles fs dir exts = .ok files := by
  unfold confFiles ConfFS.osReadDir
  cases hr : fs.readDir dir with
  | error e => cases e with
    | true => exact ⟨_, rfl⟩
    | false => exact absurd hr h
  | ok l => exact ⟨_, rfl⟩

/-! ### C11 -/

theorem pluginConfsFromFiles_no_panic (fs : ConfFS) (dir name : Bytes) : pluginConfsFromFiles fs dir name ≠ .panic := by
  have hr : ∀ l, readPluginFiles fs l ≠ .panic := by
    intro l
    induction l with
    | nil => simp [readPluginFiles]
    | cons f l ih =>
      unfold readPluginFiles
      split
      · simp
      · rename_i b _
        cases hp : pluginConfFromBytes b with
        | panic => exact absurd hp (pluginConfFromBytes_no_panic b)
        | err e => simp
        | ok p =>
          cases hl : readPluginFiles fs l with
          | panic => exact absurd hl ih
          | err e => simp
          | ok ps => simp
  unfold pluginConfsFromFiles
  cases hc : confFiles fs (joinPath dir name) [b!".conf"] with
  | panic =>
    unfold confFiles at hc
    split at hc <;> cases hc
  | err e => simp [Out.wrapErr]
  | ok l => simpa [Out.wrapErr] using hr l

theorem networkConfFromFile_no_panic (fs : ConfFS) (f : Bytes) : networkConfFromFile fs f ≠ .panic := by
  intro h
  unfold networkConfFromFile at h
  split at h
  · cases h
  · rename_i b _
    cases hb : networkConfFromBytes b with
    | panic => exact c09_no_panic _ b hb
    | err e => rw [hb] at h; simp at h
    | ok c =>
      rw [hb] at h
      simp only [Out.bind_ok] at h
      cases ha : addPluginFiles fs f c with
      | err e => rw [ha] at h; simp at h
      | ok c' => rw [ha] at h; simp only [Out.bind_ok] at h; split at h <;> cases h
      | panic =>
        unfold addPluginFiles at ha
        split at ha
        · cases ha
        · cases hp : pluginConfsFromFiles fs (dirPath f) c.name with
          | panic => exact pluginConfsFromFiles_no_panic _ _ _ hp
          | err e => rw [hp] at ha; simp at ha
          | ok ps => rw [hp] at ha; simp at ha

theorem confFromFile_no_panic (fs : ConfFS) (f : Bytes) : confFromFile fs f ≠ .panic := by
  unfold confFromFile
  split
  · simp
  · exact pluginConfFromBytes_no_panic _

theorem loadListLoop_first (fs : ConfFS) (name : Bytes) (files : List Bytes) :
    FirstMatch (networkConfFromFile fs) (fun c => c.name = name) files (loadListLoop fs name files) := by
  induction files with
  | nil => exact Or.inl ⟨by simp, rfl⟩
  | cons f l ih =>
    unfold loadListLoop
    cases hf : networkConfFromFile fs f with
    | panic => exact absurd hf (networkConfFromFile_no_panic fs f)
    | err e => exact Or.inr ⟨[], f, l, rfl, by simp, Or.inr ⟨e, hf, rfl⟩⟩
    | ok c =>
      simp only [Out.bind_ok]
      by_cases hc : c.name = name
      · rw [if_pos hc]; exact Or.inr ⟨[], f, l, rfl, by simp, Or.inl ⟨c, hf, hc, rfl⟩⟩
      · rw [if_neg hc]
        rcases ih with ⟨hall, e⟩ | ⟨pre, g, post, rfl, hpre, hg⟩
        · refine Or.inl ⟨?_, e⟩
          intro g hg
          rw [List.mem_cons] at hg
          rcases hg with rfl | hg
          · exact ⟨c, hf, hc⟩
          · exact hall g hg
        · refine Or.inr ⟨f :: pre, g, post, rfl, ?_, hg⟩
          intro x hx
          rw [List.mem_cons] at hx
          rcases hx with rfl | hx
          · exact ⟨c, hf, hc⟩
          · exact hpre x hx

theorem loadConfLoop_first (fs : ConfFS) (dir name : Bytes) (files : List Bytes) :
    ∃ r, FirstMatch (confFromFile fs) (fun c => c.network.name = name) files r ∧
      loadConfLoop fs dir name files = (match r with | .ok (some c) => .ok c | .ok none => .err (notFoundErr dir name) | .err e => .err e | .panic => .panic) := by
  induction files with
  | nil => exact ⟨.ok none, Or.inl ⟨by simp, rfl⟩, rfl⟩
  | cons f l ih =>
    unfold loadConfLoop
    cases hf : confFromFile fs f with
    | panic => exact absurd hf (confFromFile_no_panic fs f)
    | err e => exact ⟨.err e, Or.inr ⟨[], f, l, rfl, by simp, Or.inr ⟨e, hf, rfl⟩⟩, rfl⟩
    | ok c =>
      simp only [Out.bind_ok]
      by_cases hc : c.network.name = name
      · rw [if_pos hc]; exact ⟨.ok (some c), Or.inr ⟨[], f, l, rfl, by simp, Or.inl ⟨c, hf, hc, rfl⟩⟩, rfl⟩
      · rw [if_neg hc]
        obtain ⟨r, hr, e⟩ := ih
        refine ⟨r, ?_, e⟩
        rcases hr with ⟨hall, e⟩ | ⟨pre, g, post, rfl, hpre, hg⟩
        · refine Or.inl ⟨?_, e⟩
          intro g hg
          rw [List.mem_cons] at hg
          rcases hg with rfl | hg
          · exact ⟨c, hf, hc⟩
          · exact hall g hg
        · refine Or.inr ⟨f :: pre, g, post, rfl, ?_, hg⟩
          intro x hx
          rw [List.mem_cons] at hx
          rcases hx with rfl | hx
          · exact ⟨c, hf, hc⟩
          · exact hpre x hx

theorem firstMatch_unique {α : Type} {load : Bytes → Out α} {hit : α → Prop} {files : List Bytes} {r r' : Out (Option α)}
    (h : FirstMatch load hit files r) (h' : FirstMatch load hit files r') : r = r' := by
  induction files with
  | nil =>
    rcases h with ⟨_, rfl⟩ | ⟨pre, f, post, e, _⟩
    · rcases h' with ⟨_, rfl⟩ | ⟨pre, f, post, e, _⟩
      · rfl
      · simp at e
    · simp at e
  | cons g l ih =>
    have step : ∀ r, FirstMatch load hit (g :: l) r →
        (∃ c, load g = .ok c ∧ ¬ hit c ∧ FirstMatch load hit l r) ∨ (∃ c, load g = .ok c ∧ hit c ∧ r = .ok (some c)) ∨
          ∃ e, load g = .err e ∧ r = .err e := by
      rintro r (⟨hall, rfl⟩ | ⟨pre, f, post, e, hpre, hf⟩)
      · obtain ⟨c, hc, hn⟩ := hall g (by simp)
        exact Or.inl ⟨c, hc, hn, Or.inl ⟨fun x hx => hall x (by simp [hx]), rfl⟩⟩
      · cases pre with
        | nil =>
          simp only [List.nil_append, List.cons.injEq] at e
          obtain ⟨rfl, rfl⟩ := e
          exact Or.inr hf
        | cons q pre =>
          simp only [List.cons_append, List.cons.injEq] at e
          obtain ⟨rfl, rfl⟩ := e
          obtain ⟨c, hc, hn⟩ := hpre g (by simp)
          exact Or.inl ⟨c, hc, hn, Or.inr ⟨pre, f, post, rfl, fun x hx => hpre x (by simp [hx]), hf⟩⟩
    rcases step r h with ⟨c, hc, hn, h1⟩ | ⟨c, hc, hh, rfl⟩ | ⟨e, he, rfl⟩ <;>
      rcases step r' h' with ⟨c', hc', hn', h1'⟩ | ⟨c', hc', hh', rfl⟩ | ⟨e', he', rfl⟩
    · exact ih h1 h1'
    · rw [hc] at hc'; cases hc'; exact absurd hh' hn
    · rw [hc] at he'; cases he'
    · rw [hc] at hc'; cases hc'; exact absurd hh hn'
    · rw [hc] at hc'; cases hc'; rfl
    · rw [hc] at he'; cases he'
    · rw [he] at hc'; cases hc'
    · rw [he] at hc'; cases hc'
    · rw [he] at he'; cases he'; rfl

/-- C11: a matching list file is found: the call gives the first one, in byte order of the file names. -/
theorem c11_first_list (fs : ConfFS) (dir name : Bytes) (files : List Bytes) (ho : Offers fs dir [b!".conflist"] files)
    (L : NetConfList) (hf : FirstMatch (networkConfFromFile fs) (fun c => c.name = name) files (.ok (some L))) :
    loadNetworkConf fs dir name = .ok L := by
  have hne : fs.readDir dir ≠ .error false := by
    rcases ho with ⟨e, _⟩ | ⟨_, e, _⟩ <;> rw [e] <;> simp
  obtain ⟨fl, hfl⟩ := confFiles_total (exts := [b!".conflist"]) hne
  have e := offers_unique ho (confFiles_offers (by simp) hfl)
  have := firstMatch_unique hf (by rw [e]; exact loadListLoop_first fs name (sortStrings fl))
  simp [loadNetworkConf, hfl, ← this]

/-- C11: an earlier list file that cannot be loaded makes the call fail, even if a later one matches. -/
theorem c11_unloadable (fs : ConfFS) (dir name : Bytes) (files : List Bytes) (ho : Offers fs dir [b!".conflist"] files)
    (e : GoErr) (hf : FirstMatch (networkConfFromFile fs) (fun c => c.name = name) files (.err e)) :
    loadNetworkConf fs dir name = .err e := by
  have hne : fs.readDir dir ≠ .error false := by
    rcases ho with ⟨e, _⟩ | ⟨_, e, _⟩ <;> rw [e] <;> simp
  obtain ⟨fl, hfl⟩ := confFiles_total (exts := [b!".conflist"]) hne
  have e := offers_unique ho (confFiles_offers (by simp) hfl)
  have := firstMatch_unique hf (by rw [e]; exact loadListLoop_first fs name (sortStrings fl))
  simp [loadNetworkConf, hfl, ← this]

/-- C11: only if every list file loads and none matches, the single configurations are tried the same way, and the first
match is up-converted. -/
theorem c11_fallback (fs : ConfFS) (dir name : Bytes) (files singles : List Bytes) (ho : Offers fs dir [b!".conflist"] files)
    (hs : Offers fs dir [b!".conf", b!".json"] singles)
    (hf : FirstMatch (networkConfFromFile fs) (fun c => c.name = name) files (.ok none)) :
    (∀ c, FirstMatch (confFromFile fs) (fun c => c.network.name = name) singles (.ok (some c)) →
      loadNetworkConf fs dir name = confListFromConf c) ∧
    (∀ e, FirstMatch (confFromFile fs) (fun c => c.network.name = name) singles (.err e) → loadNetworkConf fs dir name = .err e) ∧
    (FirstMatch (confFromFile fs) (fun c => c.network.name = name) singles (.ok none) →
      loadNetworkConf fs dir name = .err (if files = [] ∧ singles = [] then noConfigsErr dir else notFoundErr dir name)) := by
  have hne : fs.readDir dir ≠ .error false := by
    rcases ho with ⟨e, _⟩ | ⟨_, e, _⟩ <;> rw [e] <;> simp
  obtain ⟨fl, hfl⟩ := confFiles_total (exts := [b!".conflist"]) hne
  obtain ⟨sl, hsl⟩ := confFiles_total (exts := [b!".conf", b!".json"]) hne
  have e := offers_unique ho (confFiles_offers (by simp) hfl)
  have e2 := offers_unique hs (confFiles_offers (by decide) hsl)
  have h1 := firstMatch_unique hf (by rw [e]; exact loadListLoop_first fs name (sortStrings fl))
  obtain ⟨r, hr, e3⟩ := loadConfLoop_first fs dir name singles
  have nilIff : ∀ l : List Bytes, sortStrings l = [] ↔ l = [] := by
    intro l
    have := (sortStrings_perm l).length_eq
    constructor
    · intro q; rw [q] at this; exact List.eq_nil_of_length_eq_zero this.symm
    · rintro rfl; rfl
  have main : loadNetworkConf fs dir name = (if sl = [] then .err (if fl = [] then noConfigsErr dir else notFoundErr dir name)
      else loadConfLoop fs dir name singles >>= confListFromConf) := by
    simp [loadNetworkConf, hfl, ← h1, hsl, e2]
  have hsl0 : singles = [] ↔ sl = [] := by rw [e2]; exact nilIff sl
  have hfl0 : files = [] ↔ fl = [] := by rw [e]; exact nilIff fl
  have nohit : ∀ {r}, FirstMatch (confFromFile fs) (fun c => c.network.name = name) singles r → r ≠ .ok none → singles ≠ [] := by
    rintro r (⟨_, rfl⟩ | ⟨pre, f, post, rfl, _⟩) hn
    · exact absurd rfl hn
    · simp
  refine ⟨?_, ?_, ?_⟩
  · intro c hc
    have := firstMatch_unique hr hc
    subst this
    rw [main, if_neg (fun q => nohit hc (by simp) (hsl0.2 q)), e3]; rfl
  · intro e hc
    have := firstMatch_unique hr hc
    subst this
    rw [main, if_neg (fun q => nohit hc (by simp) (hsl0.2 q)), e3]; rfl
  · intro hc
    have := firstMatch_unique hr hc
    subst this
    rw [main, e3]
    by_cases hq : sl = []
    · simp [hq, hsl0, hfl0]
    · simp [hq, hsl0]

/-- C11: these cases are exhaustive, unless the directory cannot be read. -/
theorem c11_total (fs : ConfFS) (dir name : Bytes) (hne : fs.readDir dir ≠ .error false) :
    ∃ files singles rl rs, Offers fs dir [b!".conflist"] files ∧ Offers fs dir [b!".conf", b!".json"] singles ∧
      FirstMatch (networkConfFromFile fs) (fun c => c.name = name) files rl ∧
      FirstMatch (confFromFile fs) (fun c => c.network.name = name) singles rs := by
  obtain ⟨fl, hfl⟩ := confFiles_total (exts := [b!".conflist"]) hne
  obtain ⟨sl, hsl⟩ := confFiles_total (exts := [b!".conf", b!".json"]) hne
  obtain ⟨r, hr, _⟩ := loadConfLoop_first fs dir name (sortStrings sl)
  exact ⟨_, _, _, _, confFiles_offers (by simp) hfl, confFiles_offers (by decide) hsl, loadListLoop_first fs name _, hr⟩

/-- C11: a directory that exists but cannot be read makes the call fail. -/
theorem c11_unreadable (fs : ConfFS) (dir name : Bytes) (h : fs.readDir dir = .error false) : ∃ e, loadNetworkConf fs dir name = .err e := by
  have : confFiles fs dir [b!".conflist"] = .err (.text (b!"cannot read directory " ++ dir)) := by
    unfold confFiles ConfFS.osReadDir; rw [h]
  exact ⟨_, by rw [loadNetworkConf, this]; rfl⟩

/-- C11: the call never crashes. -/
theorem c11_no_panic (fs : ConfFS) (dir name : Bytes) : loadNetworkConf fs dir name ≠ .panic := by
  by_cases hd : fs.readDir dir = .error false
  · obtain ⟨e, he⟩ := c11_unreadable fs dir name hd
    rw [he]; simp
  obtain ⟨files, singles, rl, rs, h1, h2, h3, h4⟩ := c11_total fs dir name hd
  have cases : ∀ {α : Type} {load : Bytes → Out α} {hit : α → Prop} {l : List Bytes} {r : Out (Option α)}, FirstMatch load hit l r →
      r = .ok none ∨ (∃ c, r = .ok (some c)) ∨ ∃ e, r = .err e := by
    rintro α load hit l r (⟨_, rfl⟩ | ⟨_, _, _, _, _, ⟨c, _, _, rfl⟩ | ⟨e, _, rfl⟩⟩)
    · exact .inl rfl
    · exact .inr (.inl ⟨c, rfl⟩)
    · exact .inr (.inr ⟨e, rfl⟩)
  rcases cases h3 with rfl | ⟨c, rfl⟩ | ⟨e, rfl⟩
  · obtain ⟨a, b, d⟩ := c11_fallback fs dir name files singles h1 h2 h3
    rcases cases h4 with rfl | ⟨c, rfl⟩ | ⟨e, rfl⟩
    · rw [d h4]; simp
    · rw [a c h4]; exact confListFromConf_no_panic c
    · rw [b e h4]; simp
  · rw [c11_first_list fs dir name files h1 c h3]; simp
  · rw [c11_unloadable fs dir name files h1 e h3]; simp

/-- Two systems that list the same entries in different orders and have the same file contents. -/
structure SameDirs (fs fs' : ConfFS) : Prop where
  files : ∀ f, fs.readFile f = fs'.readFile f
  dirs : ∀ d, (∃ e, fs.readDir d = .error e ∧ fs'.readDir d = .error e) ∨
    ∃ l l', fs.readDir d = .ok l ∧ fs'.readDir d = .ok l' ∧ l.Perm l' ∧ (l.map Prod.fst).Nodup

theorem sameDirs_osReadDir {fs fs' : ConfFS} (h : SameDirs fs fs') (d : Bytes) : fs.osReadDir d = fs'.osReadDir d := by
  unfold ConfFS.osReadDir
  rcases h.dirs d with ⟨e, h1, h2⟩ | ⟨l, l', h1, h2, hp, hn⟩
  · rw [h1, h2]
  · rw [h1, h2]
    have pw : ∀ l : List (Bytes × Bool), (sortBy (fun a b => bytesLe a.1 b.1) l).Pairwise fun a b => bytesLe a.1 b.1 = true := by
      intro l
      exact sortBy_pairwise (fun a _ b _ => bytesLe_total a.1 b.1) (fun a _ b _ c _ h1 h2 => bytesLe_trans h1 h2)
    have : sortBy (fun a b => bytesLe a.1 b.1) l = sortBy (fun a b => bytesLe a.1 b.1) l' := by
      refine sorted_perm_unique (((sortBy_perm _ l).trans hp).trans (sortBy_perm _ l').symm) ?_ (pw l) (pw l')
      intro a ha b hb h1 h2
      have e := bytesLe_antisymm h1 h2
      have ha := (sortBy_perm _ l).mem_iff.1 ha
      have hb := (sortBy_perm _ l).mem_iff.1 hb
      obtain ⟨k, x⟩ := a
      obtain ⟨k', y⟩ := b
      simp only at e
      subst e
      have := GoMap.get?_of_nodup hn ha
      rw [GoMap.get?_of_nodup hn hb] at this
      rw [Option.some.inj this]
    simp only [this]

/-- C11: the outcome does not depend on the order in which directories are enumerated. -/
theorem c11_order_irrelevant (fs fs' : ConfFS) (h : SameDirs fs fs') (dir name : Bytes) :
    loadNetworkConf fs dir name = loadNetworkConf fs' dir name := by
  have hc : ∀ d exts, confFiles fs d exts = confFiles fs' d exts := by
    intro d exts; unfold confFiles; rw [sameDirs_osReadDir h]
  have hrp : ∀ l, readPluginFiles fs l = readPluginFiles fs' l := by
    intro l
    induction l with
    | nil => rfl
    | cons f l ih => unfold readPluginFiles; rw [h.files, ih]
  have hn : ∀ f, networkConfFromFile fs f = networkConfFromFile fs' f := by
    intro f
    unfold networkConfFromFile addPluginFiles pluginConfsFromFiles
    simp only [h.files, hc, hrp]
  have hl : ∀ l, loadListLoop fs name l = loadListLoop fs' name l := by
    intro l
    induction l with
    | nil => rfl
    | cons f l ih => unfold loadListLoop; rw [hn, ih]
  have hs : ∀ l, loadConfLoop fs dir name l = loadConfLoop fs' dir name l := by
    intro l
    induction l with
    | nil => rfl
    | cons f l ih => unfold loadConfLoop confFromFile; rw [h.files, ih]
  unfold loadNetworkConf
  simp only [hc, hl, hs]

/-- Three list files, enumerated out of order, of which the second in byte order matches first. -/
def exampleFS (entries : List (Bytes × Bool)) : ConfFS where
  readDir d := if d = b!"/etc/cni" then .ok entries else .error true
  readFile f :=
    if f = b!"/etc/cni/10-a.conflist" then some b!"{\"name\":\"a\",\"plugins\":[{\"type\":\"x\"}]}"
    else if f = b!"/etc/cni/20-b.conflist" then some b!"{\"name\":\"b\",\"cniVersion\":\"0.4.0\",\"plugins\":[{\"type\":\"y\"}]}"
    else if f = b!"/etc/cni/30-b.conflist" then some b!"{\"name\":\"b\",\"plugins\":[{\"type\":\"z\"}]}"
    else if f = b!"/etc/cni/05-s.json" then some b!"{\"name\":\"s\",\"type\":\"y\"}"
    else none

def exampleEntries : List (Bytes × Bool) :=
  [(b!"30-b.conflist", false), (b!"d.conflist", true), (b!"05-s.json", false), (b!"10-a.conflist", false), (b!"20-b.conflist", false)]

example : ((loadNetworkConf (exampleFS exampleEntries) b!"/etc/cni" b!"b").toOption.map fun L => (L.cniVersion, L.plugins.map (·.network.type)))
    = some (b!"0.4.0", [b!"y"]) := by decide +kernel
example : ((loadNetworkConf (exampleFS exampleEntries) b!"/etc/cni" b!"s").toOption.map fun L => (L.name, L.plugins.map (·.network.type)))
    = some (b!"s", [b!"y"]) := by decide +kernel
example : SameDirs (exampleFS exampleEntries) (exampleFS exampleEntries.reverse) := by
  refine ⟨fun _ => rfl, fun d => ?_⟩
  by_cases hd : d = b!"/etc/cni"
  · exact Or.inr ⟨exampleEntries, exampleEntries.reverse, by simp [exampleFS, hd], by simp [exampleFS, hd],
      (List.reverse_perm _).symm, by decide⟩
  · exact Or.inl ⟨true, by simp [exampleFS, hd], by simp [exampleFS, hd]⟩

/-- C11: looking up a single configuration: the first matching `.conf` or `.json` file, in byte order of the file names; an earlier
file that cannot be loaded makes the call fail. These cases are exhaustive, unless the directory cannot be read. -/
theorem c11_single (fs : ConfFS) (dir name : Bytes) (singles : List Bytes) (hs : Offers fs dir [b!".conf", b!".json"] singles) :
    (∀ c, FirstMatch (confFromFile fs) (fun c => c.network.name = name) singles (.ok (some c)) → loadConf fs dir name = .ok c) ∧
    (∀ e, FirstMatch (confFromFile fs) (fun c => c.network.name = name) singles (.err e) → loadConf fs dir name = .err e) ∧
    (FirstMatch (confFromFile fs) (fun c => c.network.name = name) singles (.ok none) →
      loadConf fs dir name = .err (if singles = [] then noConfigsErr dir else notFoundErr dir name)) := by
  have hne : fs.readDir dir ≠ .error false := by
    rcases hs with ⟨e, _⟩ | ⟨_, e, _⟩ <;> rw [e] <;> simp
  obtain ⟨sl, hsl⟩ := confFiles_total (exts := [b!".conf", b!".json"]) hne
  have e2 := offers_unique hs (confFiles_offers (by decide) hsl)
  obtain ⟨r, hr, e3⟩ := loadConfLoop_first fs dir name singles
  have hsl0 : singles = [] ↔ sl = [] := by
    rw [e2]
    have := (sortStrings_perm sl).length_eq
    constructor
    · intro q; rw [q] at this; exact List.eq_nil_of_length_eq_zero this.symm
    · rintro rfl; rfl
  have main : loadConf fs dir name = (if singles = [] then .err (noConfigsErr dir) else loadConfLoop fs dir name singles) := by
    simp only [loadConf, hsl, Out.bind_ok, e2]
    by_cases hq : sl = []
    · rw [if_pos hq, if_pos (by rw [← e2]; exact hsl0.2 hq)]
    · rw [if_neg hq, if_neg (by rw [← e2]; exact fun q => hq (hsl0.1 q))]
  have nohit : ∀ {r}, FirstMatch (confFromFile fs) (fun c => c.network.name = name) singles r → r ≠ .ok none → singles ≠ [] := by
    rintro r (⟨_, rfl⟩ | ⟨pre, f, post, rfl, _⟩) hn
    · exact absurd rfl hn
    · simp
  refine ⟨?_, ?_, ?_⟩
  · intro c hc
    have := firstMatch_unique hr hc
    subst this
    rw [main, if_neg (nohit hc (by simp)), e3]
  · intro e hc
    have := firstMatch_unique hr hc
    subst this
    rw [main, if_neg (nohit hc (by simp)), e3]
  · intro hc
    have := firstMatch_unique hr hc
    subst this
    rw [main, e3]
    by_cases hq : singles = [] <;> simp [hq]

example : ((loadConf (exampleFS exampleEntries) b!"/etc/cni" b!"s").toOption.map (·.network.type)) = some b!"y" := by decide +kernel

/-! ### C52: plugin folders -/

theorem readPluginFiles_ok {fs : ConfFS} {l : List Bytes} {ps : List PluginConfig} (h : readPluginFiles fs l = .ok ps) :
    l.length = ps.length ∧ ∀ i (h1 : i < l.length) (h2 : i < ps.length), confFromFile fs l[i] = .ok ps[i] := by
  induction l generalizing ps with
  | nil => simp [readPluginFiles] at h; subst h; simp
  | cons f l ih =>
    unfold readPluginFiles at h
    split at h
    · cases h
    · rename_i b hb
      obtain ⟨p, hp, h⟩ := Out.bind_eq_ok h
      obtain ⟨ps', hps, h⟩ := Out.bind_eq_ok h
      simp only [Out.ok.injEq] at h
      subst h
      obtain ⟨h1, h2⟩ := ih hps
      refine ⟨by simp [h1], ?_⟩
      intro i hi hi'
      cases i with
      | zero => simp [confFromFile, hb, hp]
      | succ i =>
        simp only [List.getElem_cons_succ]
        exact h2 i (by simpa using hi) (by simpa using hi')

/-- C52: a list loaded from a file is the one its bytes state, followed, unless it loads only inlined plugins, by the `.conf`
files of the folder named after the network beside the list file, in order of file name; it is never empty. -/
theorem c52_from_file (fs : ConfFS) (f : Bytes) (L : NetConfList) (h : networkConfFromFile fs f = .ok L) :
    ∃ b L0 extra, fs.readFile f = some b ∧ networkConfFromBytes b = .ok L0 ∧ L = { L0 with plugins := L0.plugins ++ extra } ∧
      L.plugins ≠ [] ∧ (L0.loadOnlyInlined = true → extra = []) ∧
      (L0.loadOnlyInlined = false → ∃ l, fs.osReadDir (joinPath (dirPath f) L0.name) = l ∧
        ((l = .error true ∧ extra = []) ∨ ∃ es, l = .ok es ∧
          extra.map (fun p => Out.ok p) = ((es.filter fun e => !e.2 && extPath e.1 == b!".conf").map fun e =>
            confFromFile fs (joinPath (joinPath (dirPath f) L0.name) e.1)))) := by
  unfold networkConfFromFile at h
  split at h
  · cases h
  · rename_i b hb
    obtain ⟨L0, hL0, h⟩ := Out.bind_eq_ok h
    obtain ⟨L1, h1, h⟩ := Out.bind_eq_ok h
    unfold addPluginFiles at h1
    by_cases hlo : L0.loadOnlyInlined = true
    · rw [if_pos hlo] at h1
      simp only [Out.ok.injEq] at h1
      subst h1
      split at h
      · cases h
      · rename_i hne
        simp only [Out.ok.injEq] at h
        subst h
        exact ⟨b, L0, [], hb, hL0, by simp, hne, fun _ => rfl, fun q => by rw [hlo] at q; cases q⟩
    · rw [if_neg hlo] at h1
      obtain ⟨ps, hps, h1⟩ := Out.bind_eq_ok h1
      simp only [Out.ok.injEq] at h1
      subst h1
      split at h
      · cases h
      · rename_i hne
        simp only [Out.ok.injEq] at h
        subst h
        refine ⟨b, L0, ps, hb, hL0, rfl, hne, fun q => absurd q hlo, fun _ => ⟨_, rfl, ?_⟩⟩
        unfold pluginConfsFromFiles at hps
        obtain ⟨files, hfiles, hps⟩ := Out.bind_eq_ok hps
        have hfiles : confFiles fs (joinPath (dirPath f) L0.name) [b!".conf"] = .ok files := by
          cases hc : confFiles fs (joinPath (dirPath f) L0.name) [b!".conf"] with
          | ok l => rw [hc] at hfiles; simpa [Out.wrapErr] using hfiles
          | err e => rw [hc] at hfiles; simp [Out.wrapErr] at hfiles
          | panic => rw [hc] at hfiles; simp [Out.wrapErr] at hfiles
        unfold confFiles at hfiles
        cases hr : fs.osReadDir (joinPath (dirPath f) L0.name) with
        | error e =>
          rw [hr] at hfiles
          cases e with
          | true =>
            simp only [Out.ok.injEq] at hfiles
            subst hfiles
            simp [readPluginFiles] at hps
            exact Or.inl ⟨rfl, hps⟩
          | false => simp at hfiles
        | ok es =>
          rw [hr] at hfiles
          simp only [Out.ok.injEq] at hfiles
          rw [confFiles_entries _ (by simp)] at hfiles
          refine Or.inr ⟨es, rfl, ?_⟩
          obtain ⟨hlen, hget⟩ := readPluginFiles_ok hps
          have key : ps.map (fun p => Out.ok p) = files.map (confFromFile fs) := by
            apply List.ext_getElem
            · simp [hlen]
            · intro i h1 h2
              simp only [List.getElem_map]
              exact (hget i (by simpa using h2) (by simpa using h1)).symm
          have hfil : ∀ e : Bytes × Bool, (!e.2 && [b!".conf"].contains (extPath e.1)) = (!e.2 && extPath e.1 == b!".conf") := by
            intro e
            rw [List.contains_cons, List.contains_nil, Bool.or_false]
          rw [key, ← hfiles, List.map_map]
          simp only [hfil]
          rfl

/-- A list file with one inlined plugin and a folder with two more, one file of another kind, and a directory. -/
def folderFS : ConfFS where
  readDir d := if d = b!"/etc/cni/n" then .ok [(b!"b.conf", false), (b!"x.conf", true), (b!"a.conf", false), (b!"c.json", false)] else .error true
  readFile f :=
    if f = b!"/etc/cni/l.conflist" then some b!"{\"name\":\"n\",\"plugins\":[{\"type\":\"p\"}]}"
    else if f = b!"/etc/cni/n/a.conf" then some b!"{\"type\":\"qa\"}"
    else if f = b!"/etc/cni/n/b.conf" then some b!"{\"type\":\"qb\"}"
    else none

example : ((networkConfFromFile folderFS b!"/etc/cni/l.conflist").toOption.map fun L => L.plugins.map (·.network.type))
    = some [b!"p", b!"qa", b!"qb"] := by decide +kernel

end Verif
