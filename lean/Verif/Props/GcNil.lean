/- C90: garbage collection with a nil list of valid attachments. -/
import Verif.Props.Gc
import Verif.Spec.GcNil

namespace Verif
open Spec
set_option linter.unusedSimpArgs false

variable {flt : Bool} {fs fs' : FS} {tr : Trace}

theorem gcValuesNil_good (name ver : Bytes) : AllGood (gcValuesNil name ver) := by
  simp [AllGood, gcValuesNil]

theorem gcValuesNil_keys (name ver : Bytes) : ((gcValuesNil name ver).map Prod.fst).Nodup := by
  simp [gcValuesNil]

theorem gcValuesNil_ok (name ver : Bytes) : ValsOK (goodVals (gcValuesNil name ver)) := by
  intro kv hkv
  obtain ⟨k, v⟩ := kv
  rw [mem_goodVals] at hkv
  simp only [gcValuesNil, List.mem_cons, Prod.mk.injEq, Option.some.injEq, List.not_mem_nil, or_false] at hkv
  rcases hkv with ⟨rfl, rfl⟩ | ⟨rfl, rfl⟩ | ⟨rfl, rfl⟩ | ⟨rfl, rfl⟩ <;> exact ⟨by simp only; decide +kernel, by simp [Json.NumsOK]⟩

theorem withEmptyLists_keys (M : List (Bytes × Json)) : (withEmptyLists M).map Prod.fst = M.map Prod.fst := by
  unfold withEmptyLists
  rw [List.map_map]
  apply List.map_congr_left
  intro kv _
  simp only [Function.comp]
  split <;> rfl

theorem mem_withEmptyLists {M : List (Bytes × Json)} {k : Bytes} {v : Json}
    (hk : ¬ (k = b!"cni.dev/valid-attachments" ∨ k = b!"cni.dev/attachments")) : (k, v) ∈ withEmptyLists M ↔ (k, v) ∈ M := by
  unfold withEmptyLists
  rw [List.mem_map]
  constructor
  · rintro ⟨kv, hm, he⟩
    split at he
    · cases he; exact absurd ‹_› hk
    · rw [← he]; exact hm
  · intro h
    exact ⟨(k, v), h, by rw [if_neg hk]⟩

theorem mem_withEmptyLists_list {M : List (Bytes × Json)} {k : Bytes} {v : Json}
    (hk : k = b!"cni.dev/valid-attachments" ∨ k = b!"cni.dev/attachments") (h : (k, v) ∈ M) : (k, .arr []) ∈ withEmptyLists M := by
  unfold withEmptyLists
  exact List.mem_map.2 ⟨(k, v), h, by rw [if_pos hk]⟩

/-- The document with the nulls, and the one with the empty lists. -/
theorem injected_nil {ms M : List (Bytes × Json)} {name ver : Bytes} (h : Injected ms (goodVals (gcValuesNil name ver)) M) :
    Injected ms (goodVals (gcValues name ver (some []))) (withEmptyLists M) := by
  have hkeys : (goodVals (gcValues name ver (some []))).map Prod.fst = (goodVals (gcValuesNil name ver)).map Prod.fst := by
    rw [goodVals_keys (gcValues_good _ _ _), goodVals_keys (gcValuesNil_good _ _)]; rfl
  refine ⟨by rw [withEmptyLists_keys]; exact h.nodup, ?_, ?_, ?_⟩
  · have := h.sorted
    rw [← List.pairwise_map (R := fun a b => Bytes.lt a b = true) (f := Prod.fst)] at this ⊢
    rw [withEmptyLists_keys]; exact this
  · intro k v hkv
    rw [mem_goodVals] at hkv
    have hg := fun k v (h' : (k, some v) ∈ gcValuesNil name ver) => h.given k v (mem_goodVals.2 h')
    simp only [gcValues, List.cons_append, List.nil_append, List.mem_cons, Prod.mk.injEq, Option.some.injEq, List.not_mem_nil, or_false] at hkv
    rcases hkv with ⟨rfl, rfl⟩ | ⟨rfl, rfl⟩ | ⟨rfl, rfl⟩ | ⟨rfl, rfl⟩
    · exact (mem_withEmptyLists (by decide)).2 (hg _ _ (by simp [gcValuesNil]))
    · exact (mem_withEmptyLists (by decide)).2 (hg _ _ (by simp [gcValuesNil]))
    · exact mem_withEmptyLists_list (.inl rfl) (hg _ .null (by simp [gcValuesNil]))
    · exact mem_withEmptyLists_list (.inr rfl) (hg _ .null (by simp [gcValuesNil]))
  · intro k hk
    rw [hkeys] at hk
    obtain ⟨h1, h2⟩ := h.others k hk
    have hk' : ¬ (k = b!"cni.dev/valid-attachments" ∨ k = b!"cni.dev/attachments") := by
      rw [goodVals_keys (gcValuesNil_good _ _)] at hk
      rintro (rfl | rfl) <;> exact hk (by simp [gcValuesNil])
    refine ⟨fun v hv => ?_, fun hn => ?_⟩
    · obtain ⟨w, hw, hm⟩ := h1 v hv
      exact ⟨w, hw, (mem_withEmptyLists hk').2 hm⟩
    · intro m hm he
      have hmem : m.1 ∈ (withEmptyLists M).map Prod.fst := List.mem_map.2 ⟨m, hm, rfl⟩
      rw [withEmptyLists_keys] at hmem
      obtain ⟨m', hm', he'⟩ := List.mem_map.1 hmem
      exact h2 hn m' hm' (he'.trans he)

theorem getField_cons_if {names : List Bytes} {f k : Bytes} (x : Json) (l : List (Bytes × Json)) :
    getField names f ((k, x) :: l) = if fieldMatch names k = some f then x :: getField names f l else getField names f l := by
  unfold getField
  rw [List.filterMap_cons]
  simp only
  split <;> simp_all

theorem withEmptyLists_cons {k : Bytes} {v : Json} {M : List (Bytes × Json)} : withEmptyLists ((k, v) :: M) =
    (if k = b!"cni.dev/valid-attachments" ∨ k = b!"cni.dev/attachments" then (k, .arr []) else (k, v)) :: withEmptyLists M := rfl

/-- Fields other than the valid attachments have the same values. -/
theorem getField_withEmptyLists {M : List (Bytes × Json)} {f : Bytes} (hf : f ≠ b!"cni.dev/valid-attachments") :
    getField pluginConfFields f (withEmptyLists M) = getField pluginConfFields f M := by
  induction M with
  | nil => rfl
  | cons kv M ih =>
    obtain ⟨k, v⟩ := kv
    rw [withEmptyLists_cons]
    split
    · rename_i h
      have hne : fieldMatch pluginConfFields k ≠ some f := by
        rcases h with h | h <;> rw [h]
        · rw [fieldMatch_bare.2.2.1]; intro he; cases he; exact hf rfl
        · rw [fieldMatch_bare.2.2.2]; simp
      rw [getField_cons_if, getField_cons_if, if_neg hne, if_neg hne, ih]
    · rw [getField_cons_if, getField_cons_if, ih]

/-- `null` and `[]` are read as the same list. -/
theorem decAll_withEmptyLists {M : List (Bytes × Json)} (hn : ∀ v, (b!"cni.dev/valid-attachments", v) ∈ M → v = .null) :
    ∀ acc, decAll (decList decAttachment) acc (getField pluginConfFields b!"cni.dev/valid-attachments" (withEmptyLists M)) =
      decAll (decList decAttachment) acc (getField pluginConfFields b!"cni.dev/valid-attachments" M) := by
  induction M with
  | nil => intro acc; rfl
  | cons kv M ih =>
    intro acc
    obtain ⟨k, v⟩ := kv
    have ih := ih (fun v hv => hn v (by simp [hv]))
    rw [withEmptyLists_cons]
    by_cases hk : k = b!"cni.dev/valid-attachments"
    · rw [if_pos (.inl hk), getField_cons_if, getField_cons_if, if_pos (by rw [hk]; exact fieldMatch_bare.2.2.1), if_pos (by rw [hk]; exact fieldMatch_bare.2.2.1),
        hn v (by simp [hk]), decAll_cons, decAll_cons]
      exact ih []
    · by_cases hk2 : k = b!"cni.dev/attachments"
      · rw [if_pos (.inr hk2), getField_cons_if, getField_cons_if, if_neg (by rw [hk2, fieldMatch_bare.2.2.2]; simp), if_neg (by rw [hk2, fieldMatch_bare.2.2.2]; simp)]
        exact ih acc
      · rw [if_neg (by simp [hk, hk2]), getField_cons_if, getField_cons_if]
        split
        · rw [decAll_cons, decAll_cons]
          cases decList decAttachment acc v with
          | none => rfl
          | some b => exact ih b
        · exact ih acc

/-- The same configuration is read from both documents. -/
theorem decPluginConf_withEmptyLists {M : List (Bytes × Json)} (hn : ∀ v, (b!"cni.dev/valid-attachments", v) ∈ M → v = .null) :
    decPluginConf (.obj (withEmptyLists M)) = decPluginConf (.obj M) := by
  have hs : ∀ l, structMembers (.obj l) = some l := fun _ => rfl
  unfold decPluginConf
  rw [hs, hs]
  simp only [Option.bind_eq_bind, Option.bind_some]
  rw [getField_withEmptyLists (f := b!"cniVersion") (by decide), getField_withEmptyLists (f := b!"name") (by decide),
    getField_withEmptyLists (f := b!"type") (by decide), getField_withEmptyLists (f := b!"capabilities") (by decide),
    getField_withEmptyLists (f := b!"ipam") (by decide), getField_withEmptyLists (f := b!"dns") (by decide),
    getField_withEmptyLists (f := b!"prevResult") (by decide), decAll_withEmptyLists hn]

/-! ### one plugin -/

/-- Both sets of values can be stored into every sound configuration; the documents differ in the nulls only. -/
theorem inject_nil {p : PluginConfig} (hs : Sound p) (name ver : Bytes) :
    ∃ conf conf0, injectConf p (gcValuesNil name ver) = .ok conf ∧ injectConf p (gcValues name ver (some [])) = .ok conf0 ∧
      conf.network.type = p.network.type ∧ conf0.network.type = p.network.type ∧ NullForEmpty conf.bytes conf0.bytes := by
  obtain ⟨conf0, h0, ht0⟩ := Sound_inject hs name ver (some [])
  obtain ⟨ms, M0, hp, hp0, -, hI0, hd0, hne⟩ := c04_inject_effect p conf0 _ (gcValues_keys ..) (gcValues_ok _ _ _) h0
  obtain ⟨ms', M', c, h1, hm, hI, hc, ht, hne'⟩ := hs
  obtain ⟨m, hm⟩ := (members_inRange (Json.parse_WF h1)).2 hm
  rw [h1] at hp; cases hp
  have hin : Injected ms (goodVals (gcValuesNil name ver))
      (GoMap.insertAll (GoMap.ofList m) (cleanVals (goodVals (gcValuesNil name ver)))) :=
    injected_insertAll hm (by rw [goodVals_keys (gcValuesNil_good _ _)]; exact gcValuesNil_keys _ _)
  generalize hMd : GoMap.insertAll (GoMap.ofList m) (cleanVals (goodVals (gcValuesNil name ver))) = M at hin
  have hM0 : M0 = withEmptyLists M := injected_unique hI0 (injected_nil hin)
  have hnull : ∀ k, k = b!"cni.dev/valid-attachments" ∨ k = b!"cni.dev/attachments" → (k, Json.null) ∈ M := by
    intro k hk
    refine hin.given k .null (mem_goodVals.2 ?_)
    rcases hk with rfl | rfl <;> simp [gcValuesNil]
  have hdec : decPluginConf (.obj (withEmptyLists M)) = decPluginConf (.obj M) := by
    apply decPluginConf_withEmptyLists
    intro v hv
    have hs := sorted_pairwise.2 hin.sorted
    have := (GoMap.mem_get? hs hv).symm.trans (GoMap.mem_get? hs (hnull _ (.inl rfl)))
    exact Option.some.inj this
  subst hM0
  rw [hdec] at hd0
  refine ⟨_, conf0, (injectConf_obj h1 hm (gcValuesNil_good _ _)).trans (pluginConfFromBytes_intro
    (parse_insertAll (ofList_WF (Json.parse_WF h1) hm) (gcValuesNil_ok _ _)) (by rw [hMd]; exact hd0) hne), h0, ht0, ht0, M, ?_, hp0,
    hin.nodup, hnull _ (.inl rfl), hnull _ (.inr rfl), _, hd0, hdec.trans hd0⟩
  have := parse_insertAll (ofList_WF (Json.parse_WF h1) hm) (gcValuesNil_ok name ver)
  rw [hMd] at this
  exact this

/-! ### the loop -/

/-- The converse of `bareNetwork1_runs`. -/
theorem bareNetwork1_intro {c : CNIConfig} {verb : Bytes} {conf : PluginConfig} {o : Out Unit}
    (h : (∃ g, tr = [⟨.find conf.network.type c.path, (.error g : Except GoErr Bytes)⟩] ∧ o = .err g) ∨
      ∃ path r, tr = [⟨.find conf.network.type c.path, (.ok path : Except GoErr Bytes)⟩,
          ⟨.exec path conf.bytes (.args (attachArgs c verb {})), r⟩] ∧
        o = match r with | .ok _ => .ok () | .error g => .err g) :
    Runs flt (c.bareNetwork1 verb conf) fs tr fs o := by
  unfold CNIConfig.bareNetwork1
  simp only [prog_bind_eq]
  rcases h with ⟨g, rfl, rfl⟩ | ⟨path, r, rfl, rfl⟩
  · exact runs_bind.2 ⟨_, [], fs, .err g, by rfl, runs_findPlugin.2 ⟨.error g, rfl, rfl, rfl⟩, rfl, rfl, rfl⟩
  · refine runs_bind.2 ⟨[_], [_], fs, .ok path, by rfl, runs_findPlugin.2 ⟨.ok path, rfl, rfl, rfl⟩,
      runs_execWithoutResult.2 ⟨r, rfl, rfl, ?_⟩⟩
    cases r <;> rfl

theorem Spec.SameAsks.append {c : CNIConfig} {a b x y : Trace} (h1 : SameAsks c a x) (h2 : SameAsks c b y) :
    SameAsks c (a ++ b) (x ++ y) := by
  induction h1 with
  | nil => exact h2
  | notFound _ ih => exact .notFound ih
  | asked hs _ ih => exact .asked hs ih

/-- Two configurations of the same type, asked the same way. -/
theorem bare_swap {c : CNIConfig} {conf conf0 : PluginConfig} {o : Out Unit} (ht : conf.network.type = conf0.network.type)
    (hn : NullForEmpty conf.bytes conf0.bytes) (h : Runs flt (c.bareNetwork1 b!"GC" conf) fs tr fs' o) :
    ∃ tr0, Runs flt (c.bareNetwork1 b!"GC" conf0) fs tr0 fs' o ∧ SameAsks c tr tr0 := by
  obtain ⟨rfl, ⟨g, rfl, rfl⟩ | ⟨path, r, rfl, rfl⟩⟩ := bareNetwork1_runs h <;> rw [ht]
  · exact ⟨_, bareNetwork1_intro (.inl ⟨g, rfl, rfl⟩), .notFound .nil⟩
  · exact ⟨_, bareNetwork1_intro (.inr ⟨path, r, rfl, (by cases r <;> rfl)⟩), .asked hn .nil⟩

/-- The other way round. -/
theorem bare_swap' {c : CNIConfig} {conf conf0 : PluginConfig} {o : Out Unit} (ht : conf.network.type = conf0.network.type)
    (hn : NullForEmpty conf.bytes conf0.bytes) (h : Runs flt (c.bareNetwork1 b!"GC" conf0) fs tr fs' o) :
    ∃ tr0, Runs flt (c.bareNetwork1 b!"GC" conf) fs tr0 fs' o ∧ SameAsks c tr0 tr := by
  obtain ⟨rfl, ⟨g, rfl, rfl⟩ | ⟨path, r, rfl, rfl⟩⟩ := bareNetwork1_runs h <;> rw [← ht]
  · exact ⟨_, bareNetwork1_intro (.inl ⟨g, rfl, rfl⟩), .notFound .nil⟩
  · exact ⟨_, bareNetwork1_intro (.inr ⟨path, r, rfl, (by cases r <;> rfl)⟩), .asked hn .nil⟩

theorem gcLoopNil_runs {c : CNIConfig} {name ver : Bytes} {ps : List PluginConfig} (hs : ∀ p ∈ ps, Sound p) :
    ∀ {errs : List GoErr} {fs fs' : FS} {tr : Trace} {o : Out (List GoErr)}, Runs flt (c.gcLoopNil name ver ps errs) fs tr fs' o →
    ∃ tr0, Runs flt (c.gcLoop name ver (some []) ps errs) fs tr0 fs' o ∧ SameAsks c tr tr0 := by
  induction ps with
  | nil =>
    intro errs fs fs' tr o h
    obtain ⟨rfl, rfl, rfl⟩ := runs_done.1 h
    exact ⟨[], h, .nil⟩
  | cons p ps ih =>
    intro errs fs fs' tr o h
    obtain ⟨conf, conf0, hc, hc0, ht, ht0, hn⟩ := inject_nil (hs p (by simp)) name ver
    unfold CNIConfig.gcLoopNil at h
    rw [hc] at h
    simp only at h
    unfold CNIConfig.gcLoop
    rw [hc0]
    simp only
    obtain ⟨tr1, tr2, fs1, o1, rfl, h1, h2⟩ := runs_bind.1 h
    obtain ⟨o0, h0, rfl⟩ := runs_attempt.1 h1
    obtain ⟨tr0, h3, hr⟩ := bare_swap (ht.trans ht0.symm) hn h0
    have ha := runs_attempt.2 ⟨o0, h3, rfl⟩
    cases o0 with
    | panic =>
      obtain ⟨rfl, rfl, rfl⟩ := h2
      exact ⟨_, runs_bind.2 ⟨tr0, [], fs', _, rfl, ha, rfl, rfl, rfl⟩, hr.append .nil⟩
    | ok u =>
      obtain ⟨tr4, h4, hr4⟩ := ih (fun q hq => hs q (by simp [hq])) h2
      exact ⟨_, runs_bind.2 ⟨tr0, tr4, fs1, _, rfl, ha, h4⟩, hr.append hr4⟩
    | err g =>
      obtain ⟨tr4, h4, hr4⟩ := ih (fun q hq => hs q (by simp [hq])) h2
      exact ⟨_, runs_bind.2 ⟨tr0, tr4, fs1, _, rfl, ha, h4⟩, hr.append hr4⟩

theorem gcLoopNil_runs' {c : CNIConfig} {name ver : Bytes} {ps : List PluginConfig} (hs : ∀ p ∈ ps, Sound p) :
    ∀ {errs : List GoErr} {fs fs' : FS} {tr : Trace} {o : Out (List GoErr)}, Runs flt (c.gcLoop name ver (some []) ps errs) fs tr fs' o →
    ∃ tr0, Runs flt (c.gcLoopNil name ver ps errs) fs tr0 fs' o ∧ SameAsks c tr0 tr := by
  induction ps with
  | nil =>
    intro errs fs fs' tr o h
    obtain ⟨rfl, rfl, rfl⟩ := runs_done.1 h
    exact ⟨[], h, .nil⟩
  | cons p ps ih =>
    intro errs fs fs' tr o h
    obtain ⟨conf, conf0, hc, hc0, ht, ht0, hn⟩ := inject_nil (hs p (by simp)) name ver
    unfold CNIConfig.gcLoop at h
    rw [hc0] at h
    simp only at h
    unfold CNIConfig.gcLoopNil
    rw [hc]
    simp only
    obtain ⟨tr1, tr2, fs1, o1, rfl, h1, h2⟩ := runs_bind.1 h
    obtain ⟨o0, h0, rfl⟩ := runs_attempt.1 h1
    obtain ⟨tr0, h3, hr⟩ := bare_swap' (ht.trans ht0.symm) hn h0
    have ha := runs_attempt.2 ⟨o0, h3, rfl⟩
    cases o0 with
    | panic =>
      obtain ⟨rfl, rfl, rfl⟩ := h2
      exact ⟨_, runs_bind.2 ⟨tr0, [], fs', _, rfl, ha, rfl, rfl, rfl⟩, hr.append .nil⟩
    | ok u =>
      obtain ⟨tr4, h4, hr4⟩ := ih (fun q hq => hs q (by simp [hq])) h2
      exact ⟨_, runs_bind.2 ⟨tr0, tr4, fs1, _, rfl, ha, h4⟩, hr.append hr4⟩
    | err g =>
      obtain ⟨tr4, h4, hr4⟩ := ih (fun q hq => hs q (by simp [hq])) h2
      exact ⟨_, runs_bind.2 ⟨tr0, tr4, fs1, _, rfl, ha, h4⟩, hr.append hr4⟩

/-! ### the whole garbage collection -/

/-- The programs around the two loops, matched. -/
theorem gc_swap {c : CNIConfig} {list : NetConfList} {L L' : List GoErr → Prog (List GoErr)} {R : Trace → Trace → Prop}
    (hR : R [] [])
    (hL : ∀ errs fs fs' tr o, Runs flt (L errs) fs tr fs' o → ∃ tr0, Runs flt (L' errs) fs tr0 fs' o ∧ R tr tr0)
    {o : Out Unit}
    (h : Runs flt (if list.disableGC then .done (.ok ())
      else (c.getCachedAttachments []).attempt.bind fun r =>
        match r with
        | .error _ => .done (.ok ())
        | .ok atts => (c.gcDelLoop list (some []) atts []).bind fun errs =>
          if atLeast110 list.cniVersion then (L errs).bind fun errs => Prog.lift (joinErrs errs)
          else Prog.lift (joinErrs errs)) fs tr fs' o) :
    ∃ pre trg trg0, tr = pre ++ trg ∧ R trg trg0 ∧
      Runs flt (if list.disableGC then .done (.ok ())
        else (c.getCachedAttachments []).attempt.bind fun r =>
          match r with
          | .error _ => .done (.ok ())
          | .ok atts => (c.gcDelLoop list (some []) atts []).bind fun errs =>
            if atLeast110 list.cniVersion then (L' errs).bind fun errs => Prog.lift (joinErrs errs)
            else Prog.lift (joinErrs errs)) fs (pre ++ trg0) fs' o := by
  split at h
  · rename_i hd
    rw [if_pos hd]
    exact ⟨tr, [], [], by simp, hR, by simpa using h⟩
  · rename_i hd
    rw [if_neg hd]
    obtain ⟨tr1, tr2, fs1, o1, rfl, h1, h2⟩ := runs_bind.1 h
    cases o1 with
    | panic => exact ⟨tr1 ++ tr2, [], [], by simp, hR, by rw [List.append_nil]; exact runs_bind.2 ⟨tr1, tr2, fs1, _, rfl, h1, h2⟩⟩
    | err g => exact ⟨tr1 ++ tr2, [], [], by simp, hR, by rw [List.append_nil]; exact runs_bind.2 ⟨tr1, tr2, fs1, _, rfl, h1, h2⟩⟩
    | ok r =>
      cases r with
      | error g => exact ⟨tr1 ++ tr2, [], [], by simp, hR, by rw [List.append_nil]; exact runs_bind.2 ⟨tr1, tr2, fs1, _, rfl, h1, h2⟩⟩
      | ok atts =>
        obtain ⟨tr3, tr4, fs2, o2, rfl, h3, h4⟩ := runs_bind.1 h2
        cases o2 with
        | panic =>
          exact ⟨tr1 ++ (tr3 ++ tr4), [], [], by simp, hR, by
            rw [List.append_nil]; exact runs_bind.2 ⟨tr1, _, fs1, _, rfl, h1, runs_bind.2 ⟨tr3, tr4, fs2, _, rfl, h3, h4⟩⟩⟩
        | err g =>
          exact ⟨tr1 ++ (tr3 ++ tr4), [], [], by simp, hR, by
            rw [List.append_nil]; exact runs_bind.2 ⟨tr1, _, fs1, _, rfl, h1, runs_bind.2 ⟨tr3, tr4, fs2, _, rfl, h3, h4⟩⟩⟩
        | ok errs =>
          have h4 : Runs flt (if atLeast110 list.cniVersion then (L errs).bind fun errs => Prog.lift (joinErrs errs)
            else Prog.lift (joinErrs errs)) fs2 tr4 fs' o := h4
          by_cases ha : atLeast110 list.cniVersion = true
          · rw [if_pos ha] at h4
            obtain ⟨tr5, tr6, fs3, o3, rfl, h5, h6⟩ := runs_bind.1 h4
            obtain ⟨tr0, h7, hr⟩ := hL _ _ _ _ _ h5
            have h6' : tr6 = [] := by
              cases o3 with
              | ok es => exact (runs_lift.1 h6).1
              | err g => exact h6.1
              | panic => exact h6.1
            subst h6'
            refine ⟨tr1 ++ tr3, tr5, tr0, by simp, hr, ?_⟩
            rw [List.append_assoc]
            refine runs_bind.2 ⟨tr1, _, fs1, _, rfl, h1, runs_bind.2 ⟨tr3, tr0, fs2, _, rfl, h3, ?_⟩⟩
            show Runs flt (if atLeast110 list.cniVersion then (L' errs).bind fun errs => Prog.lift (joinErrs errs)
              else Prog.lift (joinErrs errs)) fs2 tr0 fs' o
            rw [if_pos ha]
            exact runs_bind.2 ⟨tr0, [], fs3, o3, by simp, h7, h6⟩
          · refine ⟨tr1 ++ (tr3 ++ tr4), [], [], by simp, hR, ?_⟩
            rw [List.append_nil]
            refine runs_bind.2 ⟨tr1, _, fs1, _, rfl, h1, runs_bind.2 ⟨tr3, tr4, fs2, _, rfl, h3, ?_⟩⟩
            show Runs flt (if atLeast110 list.cniVersion then (L' errs).bind fun errs => Prog.lift (joinErrs errs)
              else Prog.lift (joinErrs errs)) fs2 tr4 fs' o
            rw [if_neg ha] at h4 ⊢
            exact h4

/-- C90: garbage collection with a nil list of valid attachments is garbage collection with the empty list - the same
attachments are deleted, the same plugins are asked, with the same answers, outcome and files - except that each plugin is told
`null` instead of `[]`, from which the library's own plugins read the same. Every execution is matched so, and every execution
with the empty list is matched. -/
theorem c90_nil (c : CNIConfig) (list : NetConfList) (hs : ∀ p ∈ list.plugins, Sound p) (fs fs' : FS) (tr : Trace) (o : Out Unit)
    (h : Runs flt (c.gcNetworkListNil list) fs tr fs' o) :
    ∃ pre trg trg0, tr = pre ++ trg ∧ SameAsks c trg trg0 ∧ Runs flt (c.gcNetworkList list (some [])) fs (pre ++ trg0) fs' o := by
  unfold CNIConfig.gcNetworkListNil at h
  unfold CNIConfig.gcNetworkList
  exact gc_swap (L := fun errs => c.gcLoopNil list.name list.cniVersion list.plugins errs)
    (L' := fun errs => c.gcLoop list.name list.cniVersion (some []) list.plugins errs) .nil
    (fun errs fs fs' tr o h => gcLoopNil_runs hs h) h

/-- C90, the converse. -/
theorem c90_empty (c : CNIConfig) (list : NetConfList) (hs : ∀ p ∈ list.plugins, Sound p) (fs fs' : FS) (tr : Trace) (o : Out Unit)
    (h : Runs flt (c.gcNetworkList list (some [])) fs tr fs' o) :
    ∃ pre trg trg0, tr = pre ++ trg0 ∧ SameAsks c trg trg0 ∧ Runs flt (c.gcNetworkListNil list) fs (pre ++ trg) fs' o := by
  unfold CNIConfig.gcNetworkList at h
  unfold CNIConfig.gcNetworkListNil
  obtain ⟨pre, trg, trg0, h1, h2, h3⟩ := gc_swap (L := fun errs => c.gcLoop list.name list.cniVersion (some []) list.plugins errs)
    (L' := fun errs => c.gcLoopNil list.name list.cniVersion list.plugins errs) (R := fun a b => SameAsks c b a) .nil
    (fun errs fs fs' tr o h => gcLoopNil_runs' hs h) h
  exact ⟨pre, trg0, trg, h1, h2, h3⟩

namespace Example

/-- With a nil list the entry of the examples is deleted, and both plugins are told `null`. -/
example : ∃ tr fs' o, Runs false (cfg.gcNetworkListNil list11) oneFile tr fs' o ∧
    (tr.execs.map (fun e => (e.path, e.stdin)), fs' key, o.toOption) =
      ([(b!"/bin/b", b!"{\"cniVersion\":\"1.1.0\",\"name\":\"net\",\"prevResult\":{\"cniVersion\":\"1.1.0\",\"dns\":{\"domain\":\"d\"}},\"type\":\"b\"}"),
        (b!"/bin/a", b!"{\"cniVersion\":\"1.1.0\",\"name\":\"net\",\"prevResult\":{\"cniVersion\":\"1.1.0\",\"dns\":{\"domain\":\"d\"}},\"type\":\"a\",\"x\":1}"),
        (b!"/bin/a", b!"{\"cni.dev/attachments\":null,\"cni.dev/valid-attachments\":null,\"cniVersion\":\"1.1.0\",\"name\":\"net\",\"type\":\"a\",\"x\":1}"),
        (b!"/bin/b", b!"{\"cni.dev/attachments\":null,\"cni.dev/valid-attachments\":null,\"cniVersion\":\"1.1.0\",\"name\":\"net\",\"type\":\"b\"}")],
        none, some ()) :=
  Prog.afterDir_exists (find := find) (exec := good) (Example.lists _)
    (fun tr fs' o => (tr.execs.map (fun e => (e.path, e.stdin)), fs' key, o.toOption)) (by decide +kernel) (fun _ _ _ _ => rfl)

end Example

end Verif
