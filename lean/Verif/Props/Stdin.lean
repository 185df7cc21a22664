/- C06, C07: what a plugin is given on standard input. -/
import Verif.Props.Inject
import Verif.Types.PluginConfLemmas
import Verif.Types.ResultNums

namespace Verif
open Spec
set_option linter.unusedSimpArgs false

/-- The runtime's capability arguments are a map of values that can be marshalled. -/
structure RuntimeConf.OK (rt : RuntimeConf) : Prop where
  sorted : GoMap.Sorted rt.capArgs
  nums : ∀ kv ∈ rt.capArgs, kv.2.NumsOK

/-! ### keeping members -/

theorem lastMember_of_mem {M : List (Bytes × Json)} (hn : (M.map Prod.fst).Nodup) {k : Bytes} {v : Json} (h : (k, v) ∈ M) :
    LastMember M k v := by
  rw [lastMember_iff, GoMap.get?_reverse_of_nodup hn]
  exact GoMap.get?_of_nodup hn h

theorem keeps_mem {ms M : List (Bytes × Json)} {k : Bytes} {v : Json} (hk : Keeps ms M k) (hn : (ms.map Prod.fst).Nodup)
    (h : (k, v) ∈ ms) : ∃ w, v.toAny = some w ∧ (k, w) ∈ M := hk.1 v (lastMember_of_mem hn h)

theorem keeps_trans {ms M M' : List (Bytes × Json)} {k : Bytes} (hn : (M.map Prod.fst).Nodup) (h : Keeps ms M k)
    (h' : Keeps M M' k) : Keeps ms M' k := by
  refine ⟨fun v hv => ?_, fun h0 => h'.2 (h.2 h0)⟩
  obtain ⟨w, hw, hm⟩ := h.1 v hv
  obtain ⟨w', hw', hm'⟩ := keeps_mem h' hn hm
  rw [Json.toAny_idem _ _ hw] at hw'
  cases hw'
  exact ⟨w, hw, hm'⟩

/-! ### the filtered capability arguments -/

theorem runtimeConfigMap_sorted (caps : GoMap Bool) (args : GoMap Json) : GoMap.Sorted (runtimeConfigMap caps args) :=
  GoMap.sorted_ofList _

theorem filterMap_keys_sublist (caps : List (Bytes × Bool)) (args : GoMap Json) :
    ((caps.filterMap fun c => if c.2 then (GoMap.get? args c.1).map fun d => (c.1, d) else none).map Prod.fst).Sublist
      (caps.map Prod.fst) := by
  induction caps with
  | nil => simp
  | cons c caps ih =>
    simp only [List.filterMap_cons, List.map_cons]
    split
    · exact ih.cons _
    · rename_i b hb
      have : b.1 = c.1 := by
        split at hb
        · simp only [Option.map_eq_some_iff] at hb
          obtain ⟨_, _, rfl⟩ := hb; rfl
        · cases hb
      rw [List.map_cons, this]
      exact ih.cons_cons _

theorem mem_runtimeConfigMap {caps : GoMap Bool} {args : GoMap Json} (hc : GoMap.Sorted caps) (ha : GoMap.Sorted args)
    {k : Bytes} {a : Json} : (k, a) ∈ runtimeConfigMap caps args ↔ (k, true) ∈ caps ∧ (k, a) ∈ args := by
  rw [GoMap.mem_iff_get? (runtimeConfigMap_sorted caps args)]
  have hn : ((caps.filterMap fun c => if c.2 then (GoMap.get? args c.1).map fun d => (c.1, d) else none).map Prod.fst).Nodup :=
    (filterMap_keys_sublist caps args).nodup (GoMap.sorted_nodup hc)
  have e : GoMap.get? (runtimeConfigMap caps args) k
      = GoMap.get? (caps.filterMap fun c => if c.2 then (GoMap.get? args c.1).map fun d => (c.1, d) else none) k := by
    show GoMap.get? (GoMap.insertAll [] _) k = _
    rw [get?_insertAll_nodup hn]
    cases GoMap.get? (caps.filterMap fun c => if c.2 then (GoMap.get? args c.1).map fun d => (c.1, d) else none) k <;> rfl
  rw [e]
  constructor
  · intro h
    have := GoMap.get?_some_mem h
    simp only [List.mem_filterMap] at this
    obtain ⟨⟨k', b⟩, hm, h⟩ := this
    cases b with
    | false => simp at h
    | true =>
      simp only [if_true, Option.map_eq_some_iff, Prod.mk.injEq] at h
      obtain ⟨d, hd, rfl, rfl⟩ := h
      exact ⟨hm, GoMap.get?_some_mem hd⟩
  · rintro ⟨h1, h2⟩
    apply GoMap.get?_of_nodup hn
    simp only [List.mem_filterMap]
    exact ⟨_, h1, by simp [GoMap.mem_get? ha h2]⟩

theorem runtimeConfigMap_ok {caps : GoMap Bool} {args : GoMap Json} (hc : GoMap.Sorted caps) (ha : GoMap.Sorted args)
    (hu : ∀ p ∈ caps, isUtf8 p.1 = true) (hnum : ∀ kv ∈ args, kv.2.NumsOK) :
    ∀ kv ∈ runtimeConfigMap caps args, isUtf8 kv.1 = true ∧ kv.2.NumsOK := by
  rintro ⟨k, a⟩ h
  obtain ⟨h1, h2⟩ := (mem_runtimeConfigMap hc ha).1 h
  exact ⟨hu _ h1, hnum _ h2⟩

/-! ### decoding again what was decoded -/

theorem toAnyMembers_keys {l l' : List (Bytes × Json)} (h : Json.toAnyMembers l = some l') : l'.map Prod.fst = l.map Prod.fst := by
  induction l generalizing l' with
  | nil => simp [Json.toAnyMembers] at h; subst h; rfl
  | cons m l ih =>
    obtain ⟨k, j⟩ := m
    simp only [Json.toAnyMembers] at h
    split at h
    · rename_i j' l'' hj hl
      simp only [Option.some.injEq] at h; subst h
      simp [ih hl]
    · cases h

theorem getField_toAnyMembers {names : List Bytes} {f : Bytes} {l l' : List (Bytes × Json)} (h : Json.toAnyMembers l = some l')
    (hn : ∀ k v, (k, v) ∈ l → fieldMatch names k = some f → v.toAny = some v) : getField names f l' = getField names f l := by
  induction l generalizing l' with
  | nil => simp [Json.toAnyMembers] at h; subst h; rfl
  | cons m l ih =>
    obtain ⟨k, j⟩ := m
    simp only [Json.toAnyMembers] at h
    split at h
    · rename_i j' l'' hj hl
      simp only [Option.some.injEq] at h; subst h
      rw [getField_cons, getField_cons, ih hl (fun k v hm => hn k v (by simp [hm]))]
      by_cases hf : fieldMatch names k = some f
      · have := hn k j (by simp) hf
        rw [hj] at this; cases this
        rfl
      · simp [hf]
    · cases h

theorem sorted_of_keys {α β : Type} {l : List (Bytes × α)} {l' : List (Bytes × β)} (h : l'.map Prod.fst = l.map Prod.fst)
    (hs : GoMap.Sorted l) : GoMap.Sorted l' := by
  induction l generalizing l' with
  | nil => simp at h; subst h; trivial
  | cons a l ih =>
    cases l' with
    | nil => trivial
    | cons b l' =>
      simp only [List.map_cons, List.cons.injEq] at h
      refine ⟨?_, ih h.2 hs.2⟩
      intro p hp
      have : p.1 ∈ l.map Prod.fst := by rw [← h.2]; exact List.mem_map.2 ⟨_, hp, rfl⟩
      obtain ⟨q, hq, e⟩ := List.mem_map.1 this
      rw [h.1, ← e]
      exact hs.1 q hq

theorem fieldMatch_caps (k : Bytes) (hk : k ∈ [b!"name", b!"cniVersion", b!"prevResult", b!"runtimeConfig", b!"cni.dev/valid-attachments", b!"cni.dev/attachments"]) :
    fieldMatch pluginConfFields k ≠ some b!"capabilities" ∧ fieldMatch pluginConfFields k ≠ some b!"type" := by
  simp only [List.mem_cons, List.not_mem_nil, or_false] at hk
  rcases hk with rfl | rfl | rfl | rfl | rfl | rfl <;> decide

theorem baseValues_good (name ver : Bytes) (prev : Option Json) : AllGood (baseValues name ver prev) := by
  cases prev <;> simp [AllGood, baseValues]

theorem baseValues_keys (name ver : Bytes) (prev : Option Json) : ((baseValues name ver prev).map Prod.fst).Nodup := by
  cases prev <;> simp [baseValues]

theorem baseValues_ok {name ver : Bytes} {prev : Option Json} (h : ∀ j, prev = some j → j.NumsOK) :
    ValsOK (goodVals (baseValues name ver prev)) := by
  cases prev with
  | none =>
    intro kv hkv
    simp [goodVals, baseValues] at hkv
    rcases hkv with rfl | rfl <;> exact ⟨rfl, trivial⟩
  | some j =>
    intro kv hkv
    simp [goodVals, baseValues] at hkv
    rcases hkv with rfl | rfl | rfl
    · exact ⟨rfl, trivial⟩
    · exact ⟨rfl, trivial⟩
    · exact ⟨rfl, h j rfl⟩

theorem mem_cleanVals {l : List (Bytes × Json)} {k : Bytes} {v : Json} :
    (k, v) ∈ cleanVals l ↔ ∃ a, (k, a) ∈ l ∧ v = a.clean := by
  simp only [cleanVals, List.mem_map, Prod.mk.injEq]
  constructor
  · rintro ⟨⟨k', a⟩, hm, rfl, rfl⟩; exact ⟨a, hm, rfl⟩
  · rintro ⟨a, hm, rfl⟩; exact ⟨_, hm, rfl, rfl⟩

theorem ofList_normal_mem {ms m : List (Bytes × Json)} (hm : Json.toAnyMembers ms = some m) {k : Bytes} {v : Json}
    (h : (k, v) ∈ GoMap.ofList m) : v.toAny = some v := by
  obtain ⟨⟨k', w⟩, hw, _, e⟩ := toAnyMembers_mem hm (k, v) (ofList_mem _ h)
  exact Json.toAny_idem _ _ e

/-- What a successful `buildOneConfig` has done: `P` is the previous result's document. -/
theorem buildOneConfig_ok {name ver : Bytes} {orig p : PluginConfig} {prev : Option Result} {rt : RuntimeConf} (hrt : rt.OK)
    (h : buildOneConfig name ver orig prev rt = .ok p) :
    ∃ P, prevJson prev = some P ∧ ∃ ms m M1, Json.parse orig.bytes = some (.obj ms) ∧ Json.toAnyMembers ms = some m ∧
      M1 = GoMap.insertAll (GoMap.ofList m) (cleanVals (goodVals (baseValues name ver P))) ∧
      ∃ c1, decPluginConf (.obj M1) = some c1 ∧ ∃ M, Json.parse p.bytes = some (.obj M) ∧ (M.map Prod.fst).Nodup ∧
        decPluginConf (.obj M) = some p.network ∧ p.network.type ≠ [] ∧ p.network.capabilities = c1.capabilities ∧
        Injected ms (goodVals (baseValues name ver P)) M1 ∧
        (runtimeConfigMap c1.capabilities rt.capArgs = [] → M = M1) ∧
        (runtimeConfigMap c1.capabilities rt.capArgs ≠ [] →
          Injected M1 [(b!"runtimeConfig", .obj (runtimeConfigMap c1.capabilities rt.capArgs))] M) := by
  unfold buildOneConfig at h
  cases hP : prevJson prev with
  | none => rw [hP] at h; simp at h
  | some P =>
    refine ⟨P, rfl, ?_⟩
    rw [hP] at h
    simp only [Out.ofOption_some, Out.bind_ok] at h
    have hnum : ∀ j, P = some j → j.NumsOK := by
      intro j hj
      subst hj
      cases prev with
      | none => simp [prevJson] at hP
      | some r =>
        simp only [prevJson, Option.map_eq_some_iff, Option.some.injEq, exists_eq_right] at hP
        exact Result.json_numsOK hP
    cases hi : injectConf orig (baseValues name ver P) with
    | err e => rw [hi] at h; simp at h
    | panic => rw [hi] at h; simp at h
    | ok p1 =>
      rw [hi] at h
      simp only [Out.bind_ok] at h
      obtain ⟨ms, m, h1, h2, h3, h4, h5, h6, h7⟩ := injectConf_ok (baseValues_ok hnum) hi
      have hinj := injected_insertAll (kvs := goodVals (baseValues name ver P)) h2
        (by rw [goodVals_keys h3]; exact baseValues_keys _ _ _)
      have hs1 : GoMap.Sorted (GoMap.insertAll (GoMap.ofList m) (cleanVals (goodVals (baseValues name ver P)))) :=
        GoMap.sorted_insertAll (GoMap.sorted_ofList _) _
      refine ⟨ms, m, _, h1, h2, rfl, p1.network, h6, ?_⟩
      obtain ⟨hcs, hcu⟩ := capabilities_ok (Json.parse_WF h5) h6
      unfold injectRuntimeConfig at h
      simp only at h
      split at h
      · rename_i hrc
        cases h
        exact ⟨_, h5, GoMap.sorted_nodup hs1, h6, h7, rfl, hinj, fun _ => rfl, fun hne => absurd hrc hne⟩
      · rename_i hrc
        have hok := runtimeConfigMap_ok hcs hrt.sorted hcu hrt.nums
        have hv : ValsOK (goodVals [(b!"runtimeConfig", some (.obj (runtimeConfigMap p1.network.capabilities rt.capArgs)))]) := by
          intro kv hkv
          simp [goodVals] at hkv
          subst hkv
          refine ⟨rfl, ?_⟩
          simp only [Json.NumsOK]
          rw [NumsOKMembers_iff]
          exact fun x hx => (hok x hx).2
        obtain ⟨ms2, m2, k1, k2, k3, k4, k5, k6, k7⟩ := injectConf_ok hv h
        rw [h5] at k1
        cases k1
        have hs2 : GoMap.ofList m2 = m2 := GoMap.ofList_of_sorted (sorted_of_keys (toAnyMembers_keys k2) hs1)
        have hinj2 := injected_insertAll (kvs := goodVals [(b!"runtimeConfig",
          some (.obj (runtimeConfigMap p1.network.capabilities rt.capArgs)))]) k2 (by simp [goodVals])
        refine ⟨_, k5, hinj2.nodup, k6, k7, ?_, hinj, fun he => absurd he hrc, fun _ => hinj2⟩
        have e1 := decPluginConf_capabilities k6
        have e2 := decPluginConf_capabilities h6
        rw [hs2] at e1
        have e3 : getField pluginConfFields b!"capabilities" (GoMap.insertAll m2 (cleanVals (goodVals [(b!"runtimeConfig",
            some (.obj (runtimeConfigMap p1.network.capabilities rt.capArgs)))])))
            = getField pluginConfFields b!"capabilities" m2 :=
          getField_insert_ne (k := b!"runtimeConfig") (fieldMatch_caps _ (by simp)).1 m2 _
        rw [e3, getField_toAnyMembers k2] at e1
        · rw [e2] at e1; exact (Option.some.inj e1).symm
        · intro k v hkv hf
          rcases insertAll_keys hkv with hkv | hkv
          · exact ofList_normal_mem h2 hkv
          · exfalso
            have : k ∈ (goodVals (baseValues name ver P)).map Prod.fst := by
              rw [← cleanVals_keys]; exact List.mem_map.2 ⟨_, hkv, rfl⟩
            rw [goodVals_keys h3] at this
            apply (fieldMatch_caps k ?_).1 hf
            cases P <;> simp [baseValues] at this <;> rcases this with h | h | h <;> simp [h]


/-! ### C06 -/

theorem stdin_core {name ver : Bytes} {orig p : PluginConfig} {P : Option Json} {ms M1 M : List (Bytes × Json)} {c1 : PluginConf}
    {rt : RuntimeConf} (hrt : rt.OK) (h1 : Json.parse orig.bytes = some (.obj ms)) (h4 : Json.parse p.bytes = some (.obj M))
    (hn : (M.map Prod.fst).Nodup) (hc1 : decPluginConf (.obj M1) = some c1) (hw1 : (Json.obj M1).WF)
    (hcM : decPluginConf (.obj M) = some p.network)
    (hcap : p.network.capabilities = c1.capabilities) (hi : Injected ms (goodVals (baseValues name ver P)) M1)
    (hrc0 : runtimeConfigMap c1.capabilities rt.capArgs = [] → M = M1)
    (hrc1 : runtimeConfigMap c1.capabilities rt.capArgs ≠ [] →
      Injected M1 [(b!"runtimeConfig", .obj (runtimeConfigMap c1.capabilities rt.capArgs))] M) :
    StdinSpec orig.bytes name ver P rt.capArgs p.bytes := by
  obtain ⟨hcs, hcu⟩ := capabilities_ok hw1 hc1
  have hmem : ∀ k v, (k, v) ∈ M1 → k ≠ b!"runtimeConfig" → v.toAny = some v → (k, v) ∈ M := by
    intro k v hkv hk hv
    by_cases hrc : runtimeConfigMap c1.capabilities rt.capArgs = []
    · rw [hrc0 hrc]; exact hkv
    · obtain ⟨w, hw, hm⟩ := keeps_mem ((hrc1 hrc).others k (by simpa using hk)) hi.nodup hkv
      rw [hv] at hw; cases hw; exact hm
  have hkeep : ∀ k, k ≠ b!"runtimeConfig" → k ∉ (goodVals (baseValues name ver P)).map Prod.fst → Keeps ms M k := by
    intro k hk hb
    have := hi.others k hb
    by_cases hrc : runtimeConfigMap c1.capabilities rt.capArgs = []
    · rw [hrc0 hrc]; exact this
    · exact keeps_trans hi.nodup this ((hrc1 hrc).others k (by simpa using hk))
  have hkeys := goodVals_keys (baseValues_good name ver P)
  have hu : ∀ kv ∈ runtimeConfigMap c1.capabilities rt.capArgs, isUtf8 kv.1 = true :=
    fun kv hkv => (runtimeConfigMap_ok hcs hrt.sorted hcu hrt.nums kv hkv).1
  refine ⟨ms, M, cleanVals (runtimeConfigMap c1.capabilities rt.capArgs), h1, h4, hn, ?_, ⟨_, hcM⟩, ?_, ?_, ?_, ?_, ?_, ?_, ?_, ?_⟩
  · by_cases hrc : runtimeConfigMap c1.capabilities rt.capArgs = []
    · rw [hrc0 hrc]; exact hi.sorted
    · exact (hrc1 hrc).sorted
  · exact hmem _ _ (hi.given _ (.str name) (by simp [goodVals, baseValues])) (by decide) rfl
  · exact hmem _ _ (hi.given _ (.str ver) (by simp [goodVals, baseValues])) (by decide) rfl
  · intro r hr
    subst hr
    have hg := hi.given b!"prevResult" r (by simp [goodVals, baseValues])
    by_cases hrc : runtimeConfigMap c1.capabilities rt.capArgs = []
    · rw [hrc0 hrc]; exact ⟨_, hg, rfl⟩
    · obtain ⟨w, hw, hm⟩ := keeps_mem ((hrc1 hrc).others b!"prevResult" (by simp)) hi.nodup hg
      exact ⟨w, hm, by rw [hw]; exact Json.toAny_idem _ _ hw⟩
  · intro hP
    subst hP
    exact hkeep _ (by decide) (by rw [hkeys]; simp [baseValues])
  · refine ⟨by rw [cleanVals_keys]; exact GoMap.sorted_nodup (runtimeConfigMap_sorted _ _), ?_⟩
    intro k v
    rw [mem_cleanVals]
    constructor
    · rintro ⟨a, ha, rfl⟩
      obtain ⟨x, y⟩ := (mem_runtimeConfigMap hcs hrt.sorted).1 ha
      exact ⟨⟨_, hcM, by rw [hcap]; exact x⟩, a, y, rfl⟩
    · rintro ⟨⟨c, hc, hk⟩, a, ha, rfl⟩
      rw [hcM] at hc; cases hc
      rw [hcap] at hk
      exact ⟨a, (mem_runtimeConfigMap hcs hrt.sorted).2 ⟨hk, ha⟩, rfl⟩
  · intro hne
    have hrc : runtimeConfigMap c1.capabilities rt.capArgs ≠ [] := by
      intro e; rw [e] at hne; exact hne rfl
    have := (hrc1 hrc).given _ _ (List.mem_singleton.2 rfl)
    simp only [Json.clean] at this
    rwa [cleanMembers_keys_utf8 hu] at this
  · intro he
    have hrc : runtimeConfigMap c1.capabilities rt.capArgs = [] := by
      cases hx : runtimeConfigMap c1.capabilities rt.capArgs with
      | nil => rfl
      | cons a l => rw [hx] at he; simp [cleanVals] at he
    rw [hrc0 hrc]
    exact hi.others _ (by rw [hkeys]; cases P <;> simp [baseValues])
  · intro k hk
    simp only [List.mem_cons, List.not_mem_nil, or_false, not_or] at hk
    exact hkeep k hk.2.2.2 (by rw [hkeys]; cases P <;> simp [baseValues, hk.1, hk.2.1, hk.2.2.1])

/-- C06: the document a plugin is given is its own configuration with the name and version of the list, the previous
result if there is one, the enabled capability arguments if there are any, and everything else as it was. -/
theorem c06_stdin (name ver : Bytes) (orig p : PluginConfig) (prev : Option Result) (rt : RuntimeConf) (hrt : rt.OK)
    (h : buildOneConfig name ver orig prev rt = .ok p) :
    (prev = none → StdinSpec orig.bytes name ver none rt.capArgs p.bytes) ∧
    (∀ r, prev = some r → ∃ j, r.json = some j ∧ StdinSpec orig.bytes name ver (some j) rt.capArgs p.bytes) := by
  obtain ⟨P, hP, ms, m, M1, h1, h2, h3, c1, hc1, M, h4, hn, hcM, ht, hcap, hi, hrc0, hrc1⟩ := buildOneConfig_ok hrt h
  have hnum : ∀ j, P = some j → j.NumsOK := by
    intro j hj
    subst hj
    cases prev with
    | none => simp [prevJson] at hP
    | some r =>
      simp only [prevJson, Option.map_eq_some_iff, Option.some.injEq, exists_eq_right] at hP
      exact Result.json_numsOK hP
  have hw1 : (Json.obj M1).WF := by
    rw [h3]
    apply insertAll_WF (ofList_WF (Json.parse_WF h1) h2)
    rintro ⟨k, v⟩ hkv
    obtain ⟨a, ha, rfl⟩ := mem_cleanVals.1 hkv
    have := baseValues_ok (name := name) (ver := ver) hnum _ ha
    exact ⟨this.1, Json.clean_WF _ this.2⟩
  have := stdin_core hrt h1 h4 hn hc1 hw1 hcM hcap hi hrc0 hrc1
  constructor
  · intro hp
    subst hp
    simp [prevJson] at hP
    subst hP
    exact this
  · intro r hr
    subst hr
    simp only [prevJson, Option.map_eq_some_iff] at hP
    obtain ⟨j, hj, rfl⟩ := hP
    exact ⟨j, hj, this⟩

/-- The previous result, two capability arguments of which one is enabled, and a key of the file's own. -/
example : ((buildOneConfig b!"net" b!"1.0.0"
      { network := {}, bytes := b!"{\"type\":\"b\",\"capabilities\":{\"mac\":true,\"ips\":false},\"x\":1e2}" }
      (some (.v100 { cniVersion := b!"1.0.0" }))
      { capArgs := [(b!"bw", .null), (b!"ips", .arr []), (b!"mac", .str b!"c2:00")] }).toOption.map (·.bytes))
    = some b!"{\"capabilities\":{\"ips\":false,\"mac\":true},\"cniVersion\":\"1.0.0\",\"name\":\"net\",\"prevResult\":{\"cniVersion\":\"1.0.0\"},\"runtimeConfig\":{\"mac\":\"c2:00\"},\"type\":\"b\",\"x\":100}" := by
  decide +kernel


/-! ### C07 -/

theorem fieldMatch_capabilities_iff (k : Bytes) :
    fieldMatch pluginConfFields k = some b!"capabilities" ↔ foldKey k = foldKey b!"capabilities" := by
  unfold fieldMatch
  by_cases hk : k ∈ pluginConfFields
  · rw [if_pos hk]
    simp only [pluginConfFields, List.mem_cons, List.not_mem_nil, or_false] at hk
    rcases hk with rfl | rfl | rfl | rfl | rfl | rfl | rfl | rfl <;> decide
  · rw [if_neg hk]
    constructor
    · intro h
      have := List.find?_some h
      exact (of_decide_eq_true this).symm
    · intro h
      rw [h]
      decide

theorem getField_eq_filter (ms : List (Bytes × Json)) : getField pluginConfFields b!"capabilities" ms
    = (ms.filter fun m => foldKey m.1 = foldKey b!"capabilities").map Prod.snd := by
  induction ms with
  | nil => rfl
  | cons m ms ih =>
    obtain ⟨k, v⟩ := m
    rw [getField_cons, ih, List.filter_cons]
    by_cases h : fieldMatch pluginConfFields k = some b!"capabilities"
    · have h' := (fieldMatch_capabilities_iff k).1 h
      rw [if_pos h, if_pos (decide_eq_true h')]; rfl
    · have h' := fun e => h ((fieldMatch_capabilities_iff k).2 e)
      rw [if_neg h, if_neg (by rw [decide_eq_true_eq]; exact h')]; rfl

theorem getField_insertAll_ne {names : List Bytes} {f : Bytes} {l : List (Bytes × Json)}
    (h : ∀ m ∈ l, fieldMatch names m.1 ≠ some f) (acc : GoMap Json) :
    getField names f (GoMap.insertAll acc l) = getField names f acc := by
  induction l generalizing acc with
  | nil => rfl
  | cons a l ih =>
    show getField names f (GoMap.insertAll (GoMap.insert acc a.1 a.2) l) = _
    rw [ih (fun m hm => h m (by simp [hm])), getField_insert_ne (h a (by simp))]

theorem getField_insert_new {names : List Bytes} {f k : Bytes} {m : GoMap Json} {v : Json} (hk : fieldMatch names k = some f)
    (h : getField names f m = []) : getField names f (GoMap.insert m k v) = [v] := by
  induction m with
  | nil => simp [GoMap.insert, getField, hk]
  | cons a m ih =>
    obtain ⟨k', v'⟩ := a
    rw [getField_cons] at h
    have h' : fieldMatch names k' ≠ some f := by intro e; simp [e] at h
    have h2 : getField names f m = [] := by simpa [h'] using h
    simp only [GoMap.insert]
    split
    · rename_i e; subst e; exact absurd hk h'
    · split
      · rw [getField_cons_eq hk, getField_cons_ne h', h2]
      · rw [getField_cons_ne h', ih h2]

/-- A field named by at most one member has, after decoding into a map, the decoded value of that member. -/
theorem getField_ofList {names : List Bytes} {f : Bytes} {l : List (Bytes × Json)} (h : (getField names f l).length ≤ 1) :
    getField names f (GoMap.ofList l) = getField names f l := by
  by_cases hex : ∃ m ∈ l, fieldMatch names m.1 = some f
  · obtain ⟨⟨k, v⟩, hm, hk⟩ := hex
    obtain ⟨a, b, rfl⟩ := List.append_of_mem hm
    rw [getField_append, getField_cons_eq hk, List.length_append, List.length_cons] at h
    have ha : getField names f a = [] := List.eq_nil_of_length_eq_zero (by omega)
    have hb : getField names f b = [] := List.eq_nil_of_length_eq_zero (by omega)
    have no : ∀ {l : List (Bytes × Json)}, getField names f l = [] → ∀ m ∈ l, fieldMatch names m.1 ≠ some f := by
      intro l hl m hm e
      have : m.2 ∈ getField names f l := mem_getField.2 ⟨m.1, hm, e⟩
      rw [hl] at this; simp at this
    rw [getField_append, getField_cons_eq hk, ha, hb]
    show getField names f (GoMap.insertAll [] (a ++ (k, v) :: b)) = _
    have : GoMap.insertAll ([] : GoMap Json) (a ++ (k, v) :: b) = GoMap.insertAll (GoMap.insert (GoMap.insertAll [] a) k v) b := by
      simp [GoMap.insertAll, List.foldl_append]
    rw [this, getField_insertAll_ne (no hb), getField_insert_new hk]
    · rfl
    · rw [getField_insertAll_ne (no ha)]; rfl
  · have hno : ∀ m ∈ l, fieldMatch names m.1 ≠ some f := fun m hm e => hex ⟨m, hm, e⟩
    rw [GoMap.ofList]
    show getField names f (GoMap.insertAll [] l) = _
    rw [getField_insertAll_ne hno]
    symm
    rw [getField_nil, List.eq_nil_iff_forall_not_mem]
    intro v hv
    obtain ⟨k, hm, hk⟩ := mem_getField.1 hv
    exact hno _ hm hk

/-- Apply `g` to the values of a map. -/
def mapVals {α β : Type} (g : α → β) (l : List (Bytes × α)) : List (Bytes × β) := l.map fun p => (p.1, g p.2)

theorem mapVals_insert {α β : Type} (g : α → β) (m : GoMap α) (k : Bytes) (v : α) :
    mapVals g (GoMap.insert m k v) = GoMap.insert (mapVals g m) k (g v) := by
  induction m with
  | nil => rfl
  | cons a m ih =>
    obtain ⟨k', v'⟩ := a
    simp only [mapVals, List.map_cons, GoMap.insert] at ih ⊢
    split
    · rfl
    · split
      · rfl
      · rw [List.map_cons, ih]

theorem mapVals_insertAll {α β : Type} (g : α → β) (m : GoMap α) (l : List (Bytes × α)) :
    mapVals g (GoMap.insertAll m l) = GoMap.insertAll (mapVals g m) (mapVals g l) := by
  induction l generalizing m with
  | nil => rfl
  | cons a l ih =>
    show mapVals g (GoMap.insertAll (GoMap.insert m a.1 a.2) l) = _
    rw [ih, mapVals_insert]; rfl

theorem mapM_bools {ms : List (Bytes × Json)} {l : List (Bytes × Bool)}
    (h : (ms.mapM fun m => (decBool false m.2).map fun b => (m.1, b)) = some l) :
    l = mapVals (fun v => (decBool false v).getD false) ms ∧ ∀ m ∈ ms, (decBool false m.2).isSome = true := by
  induction ms generalizing l with
  | nil => simp at h; subst h; exact ⟨rfl, by simp⟩
  | cons m ms ih =>
    simp only [List.mapM_cons, Option.bind_eq_bind, Option.bind_eq_some_iff, Option.map_eq_some_iff] at h
    obtain ⟨_, ⟨b, hb, rfl⟩, l', hl, h⟩ := h
    simp only [Option.pure_def, Option.some.injEq] at h
    subst h
    obtain ⟨h1, h2⟩ := ih hl
    refine ⟨by simp [mapVals, hb, h1], ?_⟩
    intro x hx
    rcases List.mem_cons.1 hx with rfl | hx
    · rw [hb]; rfl
    · exact h2 x hx

theorem mapM_bools_of {ms : List (Bytes × Json)} (h : ∀ m ∈ ms, (decBool false m.2).isSome = true) :
    (ms.mapM fun m => (decBool false m.2).map fun b => (m.1, b)) = some (mapVals (fun v => (decBool false v).getD false) ms) := by
  induction ms with
  | nil => rfl
  | cons m ms ih =>
    obtain ⟨b, hb⟩ := Option.isSome_iff_exists.1 (h m (by simp))
    simp [List.mapM_cons, hb, ih (fun x hx => h x (by simp [hx])), mapVals]

/-- Going through a `map[string]interface{}` first does not change a map of booleans. -/
theorem decBoolMap_toAny {v w : Json} {r : GoMap Bool} (h : decBoolMap [] v = some r) (hw : v.toAny = some w) :
    decBoolMap [] w = some r := by
  cases v with
  | null => simp [Json.toAny] at hw; subst hw; exact h
  | obj cs =>
    simp only [decBoolMap, Option.map_eq_some_iff] at h
    obtain ⟨l, hl, rfl⟩ := h
    obtain ⟨rfl, hb⟩ := mapM_bools hl
    have hself : Json.toAnyMembers cs = some cs := by
      apply toAnyMembers_self
      intro m hm
      have := hb m hm
      cases hx : m.2 <;> rw [hx] at this <;> simp [decBool, Json.toAny] at this ⊢
    simp only [Json.toAny, hself, Option.map_some, Option.some.injEq] at hw
    subst hw
    simp only [decBoolMap]
    rw [mapM_bools_of (fun m hm => hb m (ofList_mem m hm))]
    simp only [Option.map_some, Option.some.injEq]
    have : mapVals (fun v => (decBool false v).getD false) (GoMap.ofList cs)
        = GoMap.insertAll [] (mapVals (fun v => (decBool false v).getD false) cs) := by
      show mapVals _ (GoMap.insertAll [] cs) = _
      rw [mapVals_insertAll]; rfl
    rw [this]
    exact GoMap.ofList_of_sorted (GoMap.sorted_ofList _)
  | _ => simp [decBoolMap] at h

/-- The capabilities are stated at most once (in whatever capitalisation). -/
def CapabilitiesOnce (b : Bytes) : Prop :=
  ∀ ms, Json.parse b = some (.obj ms) → (ms.filter fun m => foldKey m.1 = foldKey b!"capabilities").length ≤ 1

theorem getField_toAny_one {names : List Bytes} {f : Bytes} {l l' : List (Bytes × Json)} (h : Json.toAnyMembers l = some l') :
    (getField names f l = [] ∧ getField names f l' = []) ∨
    (∃ v w, getField names f l = [v] ∧ getField names f l' = [w] ∧ v.toAny = some w) ∨
    1 < (getField names f l).length := by
  have key : (getField names f l).map Json.toAny = (getField names f l').map some := by
    induction l generalizing l' with
    | nil => simp [Json.toAnyMembers] at h; subst h; rfl
    | cons m l ih =>
      obtain ⟨k, j⟩ := m
      simp only [Json.toAnyMembers] at h
      split at h
      · rename_i j' l'' hj hl
        simp only [Option.some.injEq] at h; subst h
        rw [getField_cons, getField_cons, List.map_append, List.map_append, ih hl]
        by_cases hf : fieldMatch names k = some f <;> simp [hf, hj]
      · cases h
  cases hl : getField names f l with
  | nil => rw [hl] at key; left; exact ⟨rfl, by simpa using key.symm⟩
  | cons v vs =>
    cases vs with
    | nil =>
      rw [hl] at key
      right; left
      cases hl' : getField names f l' with
      | nil => rw [hl'] at key; simp at key
      | cons w ws =>
        rw [hl'] at key
        simp only [List.map_cons, List.map_nil, List.cons.injEq] at key
        have : ws = [] := by simpa using key.2.symm
        exact ⟨v, w, rfl, by rw [this], key.1⟩
    | cons v' vs => right; right; simp

/-- C07: the arguments under `runtimeConfig` are exactly those whose capability the loaded plugin configuration sets to
true and for which the runtime supplied a value, with that value; without any the key is left as it was. -/
theorem c07_runtime_config (b name ver : Bytes) (orig p : PluginConfig) (prev : Option Result) (rt : RuntimeConf) (hrt : rt.OK)
    (hl : pluginConfFromBytes b = .ok orig) (honce : CapabilitiesOnce b)
    (h : buildOneConfig name ver orig prev rt = .ok p) :
    ∃ ms M rc, Json.parse b = some (.obj ms) ∧ Json.parse p.bytes = some (.obj M) ∧ (M.map Prod.fst).Nodup ∧
      (∀ k v, (k, v) ∈ rc ↔ (k, true) ∈ orig.network.capabilities ∧ ∃ a, (k, a) ∈ rt.capArgs ∧ v = a.clean) ∧
      (rc ≠ [] → (b!"runtimeConfig", .obj rc) ∈ M) ∧ (rc = [] → Keeps ms M b!"runtimeConfig") := by
  obtain ⟨hb, _, j, hj, hdec⟩ := pluginConfFromBytes_ok hl
  have hspec : ∃ P, StdinSpec orig.bytes name ver P rt.capArgs p.bytes := by
    obtain ⟨x, y⟩ := c06_stdin name ver orig p prev rt hrt h
    cases prev with
    | none => exact ⟨_, x rfl⟩
    | some r => obtain ⟨j, _, hj⟩ := y r rfl; exact ⟨_, hj⟩
  obtain ⟨P, hP, ms, m, M1, h1, h2, h3, c1, hc1, M', h4, hn, hcM, ht, hcap, hi, hrc0, hrc1⟩ := buildOneConfig_ok hrt h
  obtain ⟨P', ms', M, rc, s1, s2, s3, -, -, s4, s5, s6, s7, s8, s9, s10, s11⟩ := hspec
  rw [h1] at s1; cases s1
  rw [h4] at s2; cases s2
  rw [hb] at h1
  rw [hj] at h1; cases h1
  refine ⟨ms, M', rc, hj, h4, hn, ?_, s9, s10⟩
  have hcaps : p.network.capabilities = orig.network.capabilities := by
    rw [hcap]
    have e1 := decPluginConf_capabilities hc1
    have e0 := decPluginConf_capabilities hdec
    have hlen := honce ms hj
    have hone : (getField pluginConfFields b!"capabilities" ms).length ≤ 1 := by
      rw [getField_eq_filter, List.length_map]; exact hlen
    have hb1 : getField pluginConfFields b!"capabilities" M1 = getField pluginConfFields b!"capabilities" (GoMap.ofList m) := by
      rw [h3]
      apply getField_insertAll_ne
      rintro ⟨k, v⟩ hkv
      have : k ∈ (goodVals (baseValues name ver P)).map Prod.fst := by
        rw [← cleanVals_keys]; exact List.mem_map.2 ⟨_, hkv, rfl⟩
      rw [goodVals_keys (baseValues_good _ _ _)] at this
      apply (fieldMatch_caps k ?_).1
      cases P <;> simp [baseValues] at this <;> rcases this with h | h | h <;> simp [h]
    rcases getField_toAny_one (names := pluginConfFields) (f := b!"capabilities") h2 with ⟨x, y⟩ | ⟨v, w, x, y, z⟩ | hgt
    · rw [hb1, getField_ofList (by rw [y]; simp), y] at e1
      rw [x, e1] at e0
      exact Option.some.inj e0
    · rw [hb1, getField_ofList (by rw [y]; simp), y, decAll_one] at e1
      rw [x, decAll_one] at e0
      rw [decBoolMap_toAny e0 z] at e1
      exact (Option.some.inj e1).symm
    · omega
  intro k v
  rw [s8.2 k v]
  constructor
  · rintro ⟨⟨c, hc, hk⟩, ha⟩
    rw [hcM] at hc; cases hc
    exact ⟨by rw [← hcaps]; exact hk, ha⟩
  · rintro ⟨hk, ha⟩
    exact ⟨⟨_, hcM, by rw [hcaps]; exact hk⟩, ha⟩

/-- C07, limits of the filter: a `runtimeConfig` written in the configuration file reaches the plugin although no
capability is enabled. -/
theorem c07_own_runtime_config_passes :
    ((pluginConfFromBytes b!"{\"type\":\"b\",\"runtimeConfig\":{\"mac\":\"m\"}}" >>= fun orig =>
        buildOneConfig b!"n" b!"1.0.0" orig none {}).toOption.map (·.bytes))
      = some b!"{\"cniVersion\":\"1.0.0\",\"name\":\"n\",\"runtimeConfig\":{\"mac\":\"m\"},\"type\":\"b\"}" := by
  decide +kernel

/-- A configuration that meets the hypotheses of C07, with one capability enabled of two given. -/
example : ((pluginConfFromBytes b!"{\"type\":\"b\",\"capabilities\":{\"mac\":true,\"ips\":false}}" >>= fun orig =>
        buildOneConfig b!"n" b!"1.0.0" orig none { capArgs := [(b!"ips", .null), (b!"mac", .str b!"m")] }).toOption.map (·.bytes))
      = some b!"{\"capabilities\":{\"ips\":false,\"mac\":true},\"cniVersion\":\"1.0.0\",\"name\":\"n\",\"runtimeConfig\":{\"mac\":\"m\"},\"type\":\"b\"}" := by
  decide +kernel

end Verif
