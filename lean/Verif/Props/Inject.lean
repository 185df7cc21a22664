/- C04, C05, C06, C07: rewriting plugin configurations. -/
import Verif.Libcni.Build
import Verif.Spec.Stdin
import Verif.Props.PluginOutput
import Verif.Props.Exec
import Verif.Json.DecodedLemmas

namespace Verif
open Spec
set_option linter.unusedSimpArgs false

/-! ### the injection loop -/

/-- The values that are not nil. -/
def goodVals (kvs : List (Bytes × Option Json)) : List (Bytes × Json) := kvs.filterMap fun kv => kv.2.map fun v => (kv.1, v)

/-- No empty key, no nil value. -/
def AllGood (kvs : List (Bytes × Option Json)) : Prop := ∀ kv ∈ kvs, kv.1 ≠ [] ∧ kv.2 ≠ none

theorem injectLoop_good {m : GoMap Json} {kvs : List (Bytes × Option Json)} (h : AllGood kvs) :
    injectLoop (some m) kvs = .ok (some (GoMap.insertAll m (goodVals kvs))) := by
  induction kvs generalizing m with
  | nil => rfl
  | cons kv kvs ih =>
    obtain ⟨k, v⟩ := kv
    have hh := h (k, v) (by simp)
    have ht : AllGood kvs := fun x hx => h x (by simp [hx])
    cases v with
    | none => exact absurd rfl hh.2
    | some v =>
      simp only [injectLoop, hh.1, if_false]
      rw [ih ht]
      rfl

theorem injectLoop_bad {m : GoMap Json} {kvs : List (Bytes × Option Json)} (h : ¬ AllGood kvs) :
    ∃ e, injectLoop (some m) kvs = .err e := by
  induction kvs generalizing m with
  | nil => exact absurd (by intro kv hkv; simp at hkv) h
  | cons kv kvs ih =>
    obtain ⟨k, v⟩ := kv
    simp only [injectLoop]
    by_cases hk : k = []
    · exact ⟨_, by rw [if_pos hk]⟩
    · simp only [hk, if_false]
      cases v with
      | none => exact ⟨_, rfl⟩
      | some v =>
        apply ih
        intro hg
        apply h
        intro x hx
        rw [List.mem_cons] at hx
        rcases hx with rfl | hx
        · exact ⟨hk, by simp⟩
        · exact hg x hx

theorem injectLoop_nil_bad (kvs : List (Bytes × Option Json)) (h : kvs ≠ []) :
    (∃ e, injectLoop none kvs = .err e) ∨ injectLoop none kvs = .panic := by
  cases kvs with
  | nil => exact absurd rfl h
  | cons kv kvs =>
    obtain ⟨k, v⟩ := kv
    simp only [injectLoop]
    by_cases hk : k = []
    · exact Or.inl ⟨_, by rw [if_pos hk]⟩
    · simp only [hk, if_false]
      cases v with
      | none => exact Or.inl ⟨_, rfl⟩
      | some v => exact Or.inr rfl

theorem goodVals_keys {kvs : List (Bytes × Option Json)} (h : AllGood kvs) : (goodVals kvs).map Prod.fst = kvs.map Prod.fst := by
  induction kvs with
  | nil => rfl
  | cons kv kvs ih =>
    obtain ⟨k, v⟩ := kv
    have hh := h (k, v) (by simp)
    cases v with
    | none => exact absurd rfl hh.2
    | some v => simpa [goodVals] using ih (fun x hx => h x (by simp [hx]))

theorem mem_goodVals {kvs : List (Bytes × Option Json)} {k : Bytes} {v : Json} :
    (k, v) ∈ goodVals kvs ↔ (k, some v) ∈ kvs := by
  simp only [goodVals, List.mem_filterMap]
  constructor
  · rintro ⟨⟨k', v'⟩, hm, h⟩
    cases v' with
    | none => simp at h
    | some v' => simp at h; rw [← h.1, ← h.2]; exact hm
  · intro h; exact ⟨_, h, rfl⟩

/-! ### membership in Go maps -/

theorem GoMap.mem_iff_get? {α : Type} {m : GoMap α} (hs : GoMap.Sorted m) {k : Bytes} {v : α} :
    (k, v) ∈ m ↔ GoMap.get? m k = some v := ⟨GoMap.mem_get? hs, GoMap.get?_some_mem⟩

theorem get?_insertAll_nodup {α : Type} {m : GoMap α} {l : List (Bytes × α)} (hd : (l.map Prod.fst).Nodup) (k : Bytes) :
    GoMap.get? (GoMap.insertAll m l) k = match GoMap.get? l k with
      | some v => some v
      | none => GoMap.get? m k := by
  rw [GoMap.get?_insertAll, GoMap.get?_reverse_of_nodup hd]
  cases GoMap.get? l k <;> rfl

theorem noMember_iff_get? {α : Type} {m : GoMap α} {k : Bytes} : NoMember m k ↔ GoMap.get? m k = none := by
  rw [GoMap.get?_none_iff]
  simp only [NoMember, List.mem_map, not_exists, not_and]

theorem rawMap_obj (ms : List (Bytes × Json)) : rawMap (.obj ms) = (Json.toAnyMembers ms).map fun l => some (GoMap.ofList l) := rfl

/-- The outcome of storing `kvs` into a configuration that is an object. -/
theorem injectConf_obj {orig : PluginConfig} {ms m : List (Bytes × Json)} {kvs : List (Bytes × Option Json)}
    (hp : Json.parse orig.bytes = some (.obj ms)) (hm : Json.toAnyMembers ms = some m) (hg : AllGood kvs) :
    injectConf orig kvs = pluginConfFromBytes (Json.obj (GoMap.insertAll (GoMap.ofList m) (goodVals kvs))).print := by
  simp [injectConf, hp, rawMap_obj, hm, injectLoop_good hg, mapJson]

theorem pluginConfFromBytes_no_panic (b : Bytes) : pluginConfFromBytes b ≠ .panic := by
  unfold pluginConfFromBytes
  repeat' split
  all_goals simp

theorem pluginConfFromBytes_ok {b : Bytes} {p : PluginConfig} (h : pluginConfFromBytes b = .ok p) :
    p.bytes = b ∧ p.network.type ≠ [] ∧ ∃ j, Json.parse b = some j ∧ decPluginConf j = some p.network := by
  unfold pluginConfFromBytes at h
  split at h
  · cases h
  · rename_i j hj
    split at h
    · cases h
    · rename_i c hc
      split at h
      · cases h
      · rename_i ht
        cases h
        exact ⟨rfl, ht, j, hj, hc⟩

theorem pluginConfFromBytes_intro {b : Bytes} {j : Json} {c : PluginConf} (hj : Json.parse b = some j)
    (hc : decPluginConf j = some c) (ht : c.type ≠ []) : pluginConfFromBytes b = .ok { network := c, bytes := b } := by
  simp [pluginConfFromBytes, hj, hc, ht]

/-- The stored values can be printed: keys UTF-8 and number literals valid (as everything `json.Marshal` produces). -/
def ValsOK (kvs : List (Bytes × Json)) : Prop := ∀ kv ∈ kvs, isUtf8 kv.1 = true ∧ kv.2.NumsOK

/-- The values as JSON carries them. -/
def cleanVals (kvs : List (Bytes × Json)) : List (Bytes × Json) := kvs.map fun kv => (kv.1, kv.2.clean)

theorem cleanVals_keys (kvs : List (Bytes × Json)) : (cleanVals kvs).map Prod.fst = kvs.map Prod.fst := by
  simp [cleanVals, List.map_map, Function.comp_def]

theorem cleanVals_get? (l : List (Bytes × Json)) (k : Bytes) :
    GoMap.get? (cleanVals l) k = (GoMap.get? l k).map Json.clean := by
  induction l with
  | nil => rfl
  | cons a l ih =>
    obtain ⟨k', v⟩ := a
    simp only [cleanVals, List.map_cons, GoMap.get?]
    split
    · rfl
    · exact ih

theorem cleanMembers_keys_utf8 {l : List (Bytes × Json)} (h : ∀ kv ∈ l, isUtf8 kv.1 = true) :
    Json.cleanMembers l = cleanVals l := by
  rw [cleanMembers_eq, cleanVals]
  apply List.map_congr_left
  intro kv hkv
  rw [sanitize_of_isUtf8 (h kv hkv)]

theorem cleanVals_insert (m : GoMap Json) (k : Bytes) (v : Json) :
    cleanVals (GoMap.insert m k v) = GoMap.insert (cleanVals m) k v.clean := by
  induction m with
  | nil => rfl
  | cons a m ih =>
    obtain ⟨k', v'⟩ := a
    simp only [cleanVals, List.map_cons, GoMap.insert] at ih ⊢
    split
    · rfl
    · split
      · rfl
      · rw [List.map_cons, ih]

theorem cleanVals_insertAll (m : GoMap Json) (kvs : List (Bytes × Json)) :
    cleanVals (GoMap.insertAll m kvs) = GoMap.insertAll (cleanVals m) (cleanVals kvs) := by
  induction kvs generalizing m with
  | nil => rfl
  | cons kv kvs ih =>
    show cleanVals (GoMap.insertAll (GoMap.insert m kv.1 kv.2) kvs) = _
    rw [ih, cleanVals_insert]
    rfl

theorem insertAll_keys_nums {m kvs : List (Bytes × Json)} (hm : ∀ kv ∈ m, isUtf8 kv.1 = true ∧ kv.2.NumsOK)
    (hk : ValsOK kvs) : ∀ kv ∈ GoMap.insertAll m kvs, isUtf8 kv.1 = true ∧ kv.2.NumsOK := by
  induction kvs generalizing m with
  | nil => exact hm
  | cons kv kvs ih =>
    show ∀ x ∈ GoMap.insertAll (GoMap.insert m kv.1 kv.2) kvs, _
    apply ih
    · intro p hp
      rcases GoMap.mem_insert hp with rfl | hp
      · exact hk kv (by simp)
      · exact hm p hp
    · exact fun x hx => hk x (by simp [hx])

theorem cleanVals_of_WF {m : GoMap Json} (hm : (Json.obj m).WF) : cleanVals m = m := by
  rw [cleanVals]
  simp only [Json.WF] at hm
  rw [WFMembers_iff] at hm
  conv => rhs; rw [← List.map_id m]
  apply List.map_congr_left
  intro kv hkv
  rw [Json.clean_of_WF _ (hm kv hkv).2]; rfl

/-- What is read back after storing `kvs` into a well formed map. -/
theorem parse_insertAll {m kvs : List (Bytes × Json)} (hm : (Json.obj m).WF) (hk : ValsOK kvs) :
    Json.parse (Json.obj (GoMap.insertAll m kvs)).print = some (.obj (GoMap.insertAll m (cleanVals kvs))) := by
  have hm' := hm
  simp only [Json.WF] at hm
  rw [WFMembers_iff] at hm
  have h := insertAll_keys_nums (m := m) (fun kv hkv => ⟨(hm kv hkv).1, Json.NumsOK_of_WF _ (hm kv hkv).2⟩) hk
  rw [Json.parse_print_clean _ (by simp only [Json.NumsOK]; rw [NumsOKMembers_iff]; exact fun x hx => (h x hx).2)]
  simp only [Json.clean]
  rw [cleanMembers_keys_utf8 (fun x hx => (h x hx).1), cleanVals_insertAll, cleanVals_of_WF hm']

theorem insertAll_WF {m kvs : List (Bytes × Json)} (hm : (Json.obj m).WF) (hk : ∀ kv ∈ kvs, isUtf8 kv.1 = true ∧ kv.2.WF) :
    (Json.obj (GoMap.insertAll m kvs)).WF := by
  induction kvs generalizing m with
  | nil => exact hm
  | cons kv kvs ih =>
    show (Json.obj (GoMap.insertAll (GoMap.insert m kv.1 kv.2) kvs)).WF
    apply ih
    · simp only [Json.WF] at hm ⊢
      rw [WFMembers_iff] at hm ⊢
      intro p hp
      rcases GoMap.mem_insert hp with rfl | hp
      · exact hk kv (by simp)
      · exact hm p hp
    · exact fun x hx => hk x (by simp [hx])

theorem ofList_WF {ms m : List (Bytes × Json)} (hw : (Json.obj ms).WF) (hm : Json.toAnyMembers ms = some m) :
    (Json.obj (GoMap.ofList m)).WF := Json.toAny_WF (.obj ms) _ hw (by simp [Json.toAny, hm])

theorem sorted_pairwise {α : Type} {m : GoMap α} : GoMap.Sorted m ↔ m.Pairwise fun a b => Bytes.lt a.1 b.1 = true := by
  induction m with
  | nil => simp [GoMap.Sorted]
  | cons a m ih => simp [GoMap.Sorted, ih]

/-- A sorted map made by storing `kvs` into what `ms` decodes to. -/
theorem injected_insertAll {ms m kvs : List (Bytes × Json)} (hm : Json.toAnyMembers ms = some m)
    (hd : (kvs.map Prod.fst).Nodup) : Injected ms kvs (GoMap.insertAll (GoMap.ofList m) (cleanVals kvs)) := by
  have hs : GoMap.Sorted (GoMap.insertAll (GoMap.ofList m) (cleanVals kvs)) := GoMap.sorted_insertAll (GoMap.sorted_ofList _) _
  have hd' : ((cleanVals kvs).map Prod.fst).Nodup := by rw [cleanVals_keys]; exact hd
  refine ⟨GoMap.sorted_nodup hs, sorted_pairwise.1 hs, ?_, ?_⟩
  · intro k v hkv
    rw [GoMap.mem_iff_get? hs, get?_insertAll_nodup hd', cleanVals_get?, GoMap.get?_of_nodup hd hkv]
    rfl
  · intro k hk
    have hn : GoMap.get? (cleanVals kvs) k = none := GoMap.get?_none_iff.2 (by rw [cleanVals_keys]; exact hk)
    have e : GoMap.get? (GoMap.insertAll (GoMap.ofList m) (cleanVals kvs)) k = (GoMap.get? ms.reverse k).bind Json.toAny := by
      rw [get?_insertAll_nodup hd', hn]; exact toAnyMembers_get? hm k
    refine ⟨fun v hv => ?_, fun hno => ?_⟩
    · rw [lastMember_iff] at hv
      have : ∃ w, v.toAny = some w := by
        obtain ⟨hl, hh⟩ := toAnyMembers_iff.1 hm
        have hmem := GoMap.get?_some_mem hv
        rw [List.mem_reverse] at hmem
        obtain ⟨i, hi, ei⟩ := List.getElem_of_mem hmem
        have := hh i hi (by omega)
        rw [ei] at this
        exact ⟨_, this.2⟩
      obtain ⟨w, hw⟩ := this
      refine ⟨w, hw, ?_⟩
      rw [GoMap.mem_iff_get? hs, e, hv]; exact hw
    · rw [noMember_iff] at hno
      rw [noMember_iff_get?, e, hno]; rfl

theorem injected_unique {ms kvs M M' : List (Bytes × Json)} (hM : Injected ms kvs M) (h2 : Injected ms kvs M') : M = M' := by
  have hs := sorted_pairwise.2 hM.sorted
  have hs2 := sorted_pairwise.2 h2.sorted
  apply GoMap.ext hs hs2
  intro k
  by_cases hk : k ∈ kvs.map Prod.fst
  · obtain ⟨⟨k', v⟩, hkv, rfl⟩ := List.mem_map.1 hk
    rw [GoMap.mem_get? hs (hM.given _ _ hkv), GoMap.mem_get? hs2 (h2.given _ _ hkv)]
  · have a := hM.others k hk
    have b := h2.others k hk
    cases hl : GoMap.get? ms.reverse k with
    | none =>
      have hn := noMember_iff.2 hl
      rw [noMember_iff_get?.1 (a.2 hn), noMember_iff_get?.1 (b.2 hn)]
    | some v =>
      obtain ⟨w, hw1, hw2⟩ := a.1 v (lastMember_iff.2 hl)
      obtain ⟨w', hw1', hw2'⟩ := b.1 v (lastMember_iff.2 hl)
      rw [hw1] at hw1'; cases hw1'
      rw [GoMap.mem_get? hs hw2, GoMap.mem_get? hs2 hw2']

/-! ### C04 -/

/-- What a successful injection has done, concretely. -/
theorem injectConf_ok {orig p : PluginConfig} {kvs : List (Bytes × Option Json)}
    (hw : ValsOK (goodVals kvs)) (h : injectConf orig kvs = .ok p) :
    ∃ ms m, Json.parse orig.bytes = some (.obj ms) ∧ Json.toAnyMembers ms = some m ∧ AllGood kvs ∧
      p.bytes = (Json.obj (GoMap.insertAll (GoMap.ofList m) (goodVals kvs))).print ∧
      Json.parse p.bytes = some (.obj (GoMap.insertAll (GoMap.ofList m) (cleanVals (goodVals kvs)))) ∧
      decPluginConf (.obj (GoMap.insertAll (GoMap.ofList m) (cleanVals (goodVals kvs)))) = some p.network ∧
      p.network.type ≠ [] := by
  have h0 := h
  unfold injectConf at h
  split at h
  · cases h
  · rename_i j hj
    split at h
    · cases h
    · rename_i m0 hm0
      cases m0 with
      | none =>
        exfalso
        by_cases hk : kvs = []
        · subst hk
          simp only [injectLoop, Out.bind_ok, mapJson] at h
          obtain ⟨_, ht, j', hj', hc⟩ := pluginConfFromBytes_ok h
          have : Json.parse (Json.null).print = some .null := by decide
          rw [this] at hj'; cases hj'
          have : decPluginConf .null = some {} := by decide
          rw [this, Option.some.injEq] at hc; rw [← hc] at ht
          exact ht rfl
        · rcases injectLoop_nil_bad kvs hk with ⟨e, he⟩ | he <;> rw [he] at h <;> simp at h
      | some m1 =>
        by_cases hg : AllGood kvs
        · cases j with
          | obj ms =>
            rw [rawMap_obj] at hm0
            cases hm : Json.toAnyMembers ms with
            | none => rw [hm] at hm0; simp at hm0
            | some m =>
              rw [injectConf_obj hj hm hg] at h0
              obtain ⟨hb, ht, j', hj', hc⟩ := pluginConfFromBytes_ok h0
              have hpp := parse_insertAll (ofList_WF (Json.parse_WF hj) hm) hw
              rw [hpp] at hj'
              cases hj'
              exact ⟨ms, m, hj, hm, hg, hb, by rw [hb]; exact hpp, hc, ht⟩
          | _ => simp [rawMap, decAnyMap] at hm0
        · obtain ⟨e, he⟩ := injectLoop_bad (m := m1) hg
          rw [he] at h; simp at h

/-- C04: a successful injection produces the original document with exactly the given values stored: nothing else is
changed, added or lost; and the returned configuration is that document's. -/
theorem c04_inject_effect (orig p : PluginConfig) (kvs : List (Bytes × Option Json))
    (hd : (kvs.map Prod.fst).Nodup) (hw : ValsOK (goodVals kvs)) (h : injectConf orig kvs = .ok p) :
    ∃ ms M, Json.parse orig.bytes = some (.obj ms) ∧ Json.parse p.bytes = some (.obj M) ∧
      AllGood kvs ∧ Injected ms (goodVals kvs) M ∧ decPluginConf (.obj M) = some p.network ∧ p.network.type ≠ [] := by
  obtain ⟨ms, m, h1, h2, h3, h4, h5, h6, h7⟩ := injectConf_ok hw h
  exact ⟨ms, _, h1, h5, h3, injected_insertAll h2 (by rw [goodVals_keys h3]; exact hd), h6, h7⟩

/-- C04: injection succeeds exactly when the original is an object without numbers beyond float64, no key is empty, no
value nil, and the document with the values stored is a plugin configuration with a type. -/
theorem c04_inject_iff (orig : PluginConfig) (kvs : List (Bytes × Option Json))
    (hd : (kvs.map Prod.fst).Nodup) (hw : ValsOK (goodVals kvs)) :
    (∃ p, injectConf orig kvs = .ok p) ↔
      AllGood kvs ∧ ∃ ms, Json.parse orig.bytes = some (.obj ms) ∧ InRange (.obj ms) ∧
        ∃ M c, Injected ms (goodVals kvs) M ∧ decPluginConf (.obj M) = some c ∧ c.type ≠ [] := by
  constructor
  · rintro ⟨p, hp⟩
    obtain ⟨ms, M, h1, h2, h3, h4, h5, h6⟩ := c04_inject_effect orig p kvs hd hw hp
    have hm : ∃ m, Json.toAnyMembers ms = some m := by
      cases hm : Json.toAnyMembers ms with
      | some m => exact ⟨m, rfl⟩
      | none => simp [injectConf, h1, rawMap_obj, hm] at hp
    refine ⟨h3, ms, h1, (members_inRange (Json.parse_WF h1)).1 hm, ?_⟩
    obtain ⟨m, hm⟩ := hm
    rw [injectConf_obj h1 hm h3] at hp
    obtain ⟨hb, ht, j', hj', hc⟩ := pluginConfFromBytes_ok hp
    rw [parse_insertAll (ofList_WF (Json.parse_WF h1) hm) hw] at hj'
    cases hj'
    exact ⟨_, _,
      injected_insertAll hm (by rw [goodVals_keys h3]; exact hd), hc, ht⟩
  · rintro ⟨hg, ms, hp, hm, M, c, hM, hc, ht⟩
    obtain ⟨m, hm⟩ := (members_inRange (Json.parse_WF hp)).2 hm
    have hs : GoMap.Sorted M := sorted_pairwise.2 hM.sorted
    have hd' : ((goodVals kvs).map Prod.fst).Nodup := by rw [goodVals_keys hg]; exact hd
    have e := injected_unique hM (injected_insertAll hm hd')
    have hfin := pluginConfFromBytes_intro (parse_insertAll (ofList_WF (Json.parse_WF hp) hm) hw) (by rw [← e]; exact hc) ht
    exact ⟨_, (injectConf_obj hp hm hg).trans hfin⟩

/-- C04, a defect: injecting a value into a configuration whose bytes are `null` crashes (the loaders never produce one). -/
theorem c04_null_panics (c : PluginConf) (k : Bytes) (v : Json) (hk : k ≠ []) :
    injectConf { network := c, bytes := b!"null" } [(k, some v)] = .panic := by
  have : Json.parse b!"null" = some .null := by decide
  simp [injectConf, this, rawMap, decAnyMap, injectLoop, hk]

/-- Two values stored into a configuration with a nested and a repeated key. -/
example : ((injectConf { network := {}, bytes := b!" {\"type\":\"a\", \"x\":{\"z\":1,\"y\":[2.50]}, \"type\":\"b\"}" }
      [(b!"name", some (.str b!"n")), (b!"mtu", some (.num b!"1500"))]).toOption.map (·.bytes))
    = some b!"{\"mtu\":1500,\"name\":\"n\",\"type\":\"b\",\"x\":{\"y\":[2.5],\"z\":1}}" := by decide +kernel

/-! ### C05 -/

theorem AllGood.perm {kvs kvs' : List (Bytes × Option Json)} (h : kvs.Perm kvs') : AllGood kvs ↔ AllGood kvs' :=
  ⟨fun hg x hx => hg x (h.mem_iff.2 hx), fun hg x hx => hg x (h.mem_iff.1 hx)⟩

/-- C05: the order in which the map of new values is enumerated does not change the outcome: the same configuration, or
an error in both cases (for configurations other than `null`). -/
theorem c05_order_irrelevant (orig : PluginConfig) (kvs kvs' : List (Bytes × Option Json)) (hp : kvs.Perm kvs')
    (hd : (kvs.map Prod.fst).Nodup) (hnull : Json.parse orig.bytes ≠ some .null) :
    injectConf orig kvs = injectConf orig kvs' ∨
      (∃ e, injectConf orig kvs = .err e) ∧ (∃ e, injectConf orig kvs' = .err e) := by
  cases hj : Json.parse orig.bytes with
  | none => left; simp [injectConf, hj]
  | some j =>
    cases hm : rawMap j with
    | none => left; simp [injectConf, hj, hm]
    | some m0 =>
      cases m0 with
      | none =>
        exfalso
        cases j <;> simp [rawMap, decAnyMap] at hm
        exact hnull hj
      | some m =>
        have hs : GoMap.Sorted m := by
          cases j with
          | obj ms =>
            rw [rawMap_obj] at hm
            cases hh : Json.toAnyMembers ms with
            | none => rw [hh] at hm; simp at hm
            | some l => rw [hh] at hm; simp at hm; rw [← hm]; exact GoMap.sorted_ofList _
          | _ => simp [rawMap, decAnyMap] at hm
        by_cases hg : AllGood kvs
        · left
          have hg' := (AllGood.perm hp).1 hg
          simp only [injectConf, hj, hm, injectLoop_good hg, injectLoop_good hg', Out.bind_ok]
          rw [GoMap.insertAll_perm hs (l := goodVals kvs) (l' := goodVals kvs')]
          · exact hp.filterMap _
          · rw [goodVals_keys hg]; exact hd
        · right
          have hg' : ¬ AllGood kvs' := fun h => hg ((AllGood.perm hp).2 h)
          obtain ⟨e, he⟩ := injectLoop_bad (m := m) hg
          obtain ⟨e', he'⟩ := injectLoop_bad (m := m) hg'
          exact ⟨⟨e, by simp [injectConf, hj, hm, he]⟩, ⟨e', by simp [injectConf, hj, hm, he']⟩⟩

/-- A map of three values, enumerated in two ways. -/
example : let kvs := [(b!"name", some (Json.str b!"n")), (b!"cniVersion", some (.str b!"1.0.0")), (b!"a", some (.bool true))]
    kvs.Perm kvs.reverse ∧ (kvs.map Prod.fst).Nodup := by
  refine ⟨(List.reverse_perm _).symm, by decide⟩

end Verif
