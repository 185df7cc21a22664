/- Reading back what ADD stored. -/
import Verif.Libcni.CacheLemmas
import Verif.Libcni.CachePath
import Verif.Json.DecodedLemmas
import Verif.Props.ResultJson
import Verif.Props.Stdin

namespace Verif
open Spec

mutual
theorem Json.toAny_clean_some (j : Json) (h : j.toAny ≠ none) : j.clean.toAny ≠ none := by
  cases j with
  | null => simp [Json.clean, Json.toAny]
  | bool b => simp [Json.clean, Json.toAny]
  | num l => simpa [Json.clean] using h
  | str s => simp [Json.clean, Json.toAny]
  | arr l =>
    simp only [Json.clean, Json.toAny, ne_eq, Option.map_eq_none_iff] at h ⊢
    exact Json.toAnyList_clean_some l h
  | obj ms =>
    simp only [Json.clean, Json.toAny, ne_eq, Option.map_eq_none_iff] at h ⊢
    exact Json.toAnyMembers_clean_some ms h
theorem Json.toAnyList_clean_some (l : List Json) (h : Json.toAnyList l ≠ none) : Json.toAnyList (Json.cleanList l) ≠ none := by
  cases l with
  | nil => simp [Json.cleanList, Json.toAnyList]
  | cons j l =>
    simp only [Json.cleanList, Json.toAnyList] at h ⊢
    cases hj : j.toAny with
    | none => rw [hj] at h; simp at h
    | some j' =>
      cases hl : Json.toAnyList l with
      | none => rw [hl] at h; simp at h
      | some l' =>
        have h1 := Json.toAny_clean_some j (by rw [hj]; simp)
        have h2 := Json.toAnyList_clean_some l (by rw [hl]; simp)
        cases hj2 : j.clean.toAny with
        | none => exact absurd hj2 h1
        | some a =>
          cases hl2 : Json.toAnyList (Json.cleanList l) with
          | none => exact absurd hl2 h2
          | some b => simp
theorem Json.toAnyMembers_clean_some (l : List (Bytes × Json)) (h : Json.toAnyMembers l ≠ none) :
    Json.toAnyMembers (Json.cleanMembers l) ≠ none := by
  cases l with
  | nil => simp [Json.cleanMembers, Json.toAnyMembers]
  | cons m l =>
    obtain ⟨k, j⟩ := m
    simp only [Json.cleanMembers, Json.toAnyMembers] at h ⊢
    cases hj : j.toAny with
    | none => rw [hj] at h; simp at h
    | some j' =>
      cases hl : Json.toAnyMembers l with
      | none => rw [hl] at h; simp at h
      | some l' =>
        have h1 := Json.toAny_clean_some j (by rw [hj]; simp)
        have h2 := Json.toAnyMembers_clean_some l (by rw [hl]; simp)
        cases hj2 : j.clean.toAny with
        | none => exact absurd hj2 h1
        | some a =>
          cases hl2 : Json.toAnyMembers (Json.cleanMembers l) with
          | none => exact absurd hl2 h2
          | some b => simp
end

theorem toAnyMembers_some {l : List (Bytes × Json)} (h : ∀ kv ∈ l, kv.2.toAny ≠ none) : Json.toAnyMembers l ≠ none := by
  induction l with
  | nil => simp [Json.toAnyMembers]
  | cons m l ih =>
    obtain ⟨k, j⟩ := m
    have h1 := h (k, j) (by simp)
    have h2 := ih (fun kv hkv => h kv (by simp [hkv]))
    simp only [Json.toAnyMembers]
    cases hj : j.toAny with
    | none => exact absurd hj h1
    | some a =>
      cases hl : Json.toAnyMembers l with
      | none => exact absurd hl h2
      | some b => simp

theorem numsOKMembers_iff {l : List (Bytes × Json)} : Json.NumsOKMembers l ↔ ∀ kv ∈ l, kv.2.NumsOK := by
  induction l with
  | nil => simp [Json.NumsOKMembers]
  | cons m l ih => simp [Json.NumsOKMembers, ih]

/-- The parts of an entry. -/
theorem cachedInfoOf_spec {result : Option Result} {config name : Bytes} {rt : RuntimeConf} {info : CachedInfo}
    (h : cachedInfoOf result config name rt = some info) :
    ∃ raw doc, info = ⟨cacheKind, rt.containerID, config, rt.ifName, name, rt.netNS, some rt.args, rt.capArgs, raw⟩ ∧
      prevJson result = some doc ∧ (doc.getD .null).NumsOK ∧ decAnyMap none (doc.getD .null).clean = some raw ∧
      (∀ m, raw = some m → (Json.obj m).Normal) := by
  unfold cachedInfoOf at h
  cases hd : prevJson result with
  | none => rw [hd] at h; cases h
  | some doc =>
    rw [hd] at h
    have hn : (doc.getD .null).NumsOK := by
      cases result with
      | none => simp only [prevJson, Option.some.injEq] at hd; subst hd; trivial
      | some r =>
        simp only [prevJson, Option.map_eq_some_iff] at hd
        obtain ⟨j, hj, rfl⟩ := hd
        exact Result.json_numsOK hj
    simp only [Option.bind_eq_bind, Option.bind_some, Json.parse_print_clean _ hn] at h
    have hw := Json.clean_WF _ hn
    cases hr : decAnyMap none (doc.getD .null).clean with
    | none => rw [hr] at h; cases h
    | some raw =>
      rw [hr] at h
      simp only [Option.bind_some, Option.some.injEq] at h
      refine ⟨raw, doc, h.symm, rfl, hn, hr, ?_⟩
      rintro m rfl
      generalize (doc.getD .null).clean = j at hr hw
      cases j with
      | obj ms =>
        simp only [decAnyMap, Option.map_eq_some_iff, Option.some.injEq] at hr
        obtain ⟨l, hl, rfl⟩ := hr
        refine Json.toAny_normal hw ?_
        simp only [Json.toAny, hl, Option.map_some]
        rfl
      | null => simp [decAnyMap] at hr
      | bool => simp [decAnyMap] at hr
      | num => simp [decAnyMap] at hr
      | str => simp [decAnyMap] at hr
      | arr => simp [decAnyMap] at hr

theorem normal_obj {m : List (Bytes × Json)} (h : (Json.obj m).Normal) :
    ∃ l, Json.toAnyMembers m = some l ∧ GoMap.ofList l = m ∧ Json.cleanMembers m = m ∧ Json.NumsOKMembers m := by
  obtain ⟨h1, h2⟩ := h
  simp only [Json.toAny, Option.map_eq_some_iff] at h1
  obtain ⟨l, hl, he⟩ := h1
  refine ⟨l, hl, by simpa using he, ?_, ?_⟩
  · have := Json.clean_of_WF _ h2
    simpa [Json.clean] using this
  · have := Json.NumsOK_of_WF _ h2
    simpa [Json.NumsOK] using this

/-- Reading back an entry. -/
theorem readCachedInfo_entry {result : Option Result} {config name : Bytes} {rt : RuntimeConf} {info : CachedInfo} (hrt : rt.OK)
    (h : cachedInfoOf result config name rt = some info) (hcap : ∀ kv ∈ rt.capArgs, InRange kv.2) :
    ∃ caps, Json.toAnyMembers (Json.cleanMembers rt.capArgs) = some caps ∧
      readCachedInfo info.json.print = some
        { kind := cacheKind, containerID := sanitize rt.containerID, config := config, ifName := sanitize rt.ifName,
          networkName := sanitize name, netNS := sanitize rt.netNS,
          cniArgs := if rt.args = [] then none else some (rt.args.map sanitizePair),
          capArgs := GoMap.ofList caps,
          rawResult := if info.rawResult.getD [] = [] then none else info.rawResult } := by
  obtain ⟨raw, doc, rfl, -, -, -, hraw⟩ := cachedInfoOf_spec h
  have n1 : Json.NumsOKMembers rt.capArgs := numsOKMembers_iff.2 hrt.nums
  obtain ⟨caps0, hcaps0⟩ := (toAnyMembers_inRange rt.capArgs n1).2 hcap
  have hc := Json.toAnyMembers_clean_some rt.capArgs (by rw [hcaps0]; simp)
  obtain ⟨caps, hcaps⟩ := Option.ne_none_iff_exists'.1 hc
  have hr : ∃ l, Json.toAnyMembers (Json.cleanMembers (raw.getD [])) = some l ∧
      GoMap.ofList l = raw.getD [] ∧ Json.NumsOKMembers (raw.getD []) := by
    cases raw with
    | none => exact ⟨[], rfl, rfl, trivial⟩
    | some m =>
      obtain ⟨l, h1, h2, h3, h4⟩ := normal_obj (hraw m rfl)
      exact ⟨l, by simp only [Option.getD_some]; rw [h3]; exact h1, h2, h4⟩
  obtain ⟨l, h1, h2, h4⟩ := hr
  refine ⟨caps, hcaps, ?_⟩
  rw [readCachedInfo_json 
    (c := ⟨cacheKind, rt.containerID, config, rt.ifName, name, rt.netNS, some rt.args, rt.capArgs, raw⟩) n1 h4 hcaps h1]
  have hk : sanitize cacheKind = cacheKind := by decide
  simp only [CachedInfo.clean, Option.getD_some, Option.map_some, hk, Option.some.injEq, CachedInfo.mk.injEq, true_and]
  by_cases he : raw.getD [] = []
  · rw [if_pos he, if_pos he]
  · rw [if_neg he, if_neg he]
    cases raw with
    | none => simp at he
    | some m => simp only [Option.getD_some] at h2; rw [h2]

theorem currentFormat_entry {result : Option Result} {config name : Bytes} {rt : RuntimeConf} {info : CachedInfo} (hrt : rt.OK)
    (h : cachedInfoOf result config name rt = some info) (hcap : ∀ kv ∈ rt.capArgs, InRange kv.2) :
    ∃ ci, currentFormat info.json.print = some ci ∧
      ci.rawResult = if info.rawResult.getD [] = [] then none else info.rawResult := by
  obtain ⟨caps, -, hr⟩ := readCachedInfo_entry hrt h hcap
  unfold currentFormat
  rw [hr]
  exact ⟨_, if_pos rfl, rfl⟩

theorem Result.json_obj {r : Result} {j : Json} (h : r.json = some j) : ∃ ms, j = .obj ms := by
  unfold Result.json at h
  split at h
  · cases r with
    | v020 r => exact ⟨_, (Option.some.inj h).symm⟩
    | v040 r => exact ⟨_, (Option.some.inj h).symm⟩
    | v100 r =>
      simp only [R100.json] at h
      split at h
      · exact ⟨_, (Option.some.inj h).symm⟩
      · cases h
  · cases h

/-- The result read from an entry is the one stored, in the requested version. -/
theorem cachedResultOf_entry {r : Result} {config name ver : Bytes} {rt : RuntimeConf} {info : CachedInfo} (hrt : rt.OK)
    (hw : WellTyped r) (hrep : Representable true r)
    (h : cachedInfoOf (some r) config name rt = some info) (hcap : ∀ kv ∈ rt.capArgs, InRange kv.2) :
    cachedResultOf ver (some info.json.print) =
      ((r.getAsVersion ver).wrapErr b!"failed to convert cached result to config version").bind fun r' => .ok (some r') := by
  obtain ⟨ci, hcf, hraw⟩ := currentFormat_entry hrt h hcap
  obtain ⟨raw, doc, rfl, hdoc, -, hdec, -⟩ := cachedInfoOf_spec h
  obtain ⟨j, j', hj, hany, hcr⟩ := c32_roundtrip_any r hw hrep
  obtain ⟨j0, hj0, hgood, -⟩ := Result.json_reads hw hrep (fun _ => rfl)
  rw [hj] at hj0
  cases hj0
  simp only [prevJson, hj, Option.map_some, Option.some.injEq] at hdoc
  subst hdoc
  simp only [Option.getD_some, Json.clean_of_WF _ hgood.2.1] at hdec
  obtain ⟨ms, rfl⟩ := Result.json_obj hj
  simp only [Json.toAny, Option.map_eq_some_iff] at hany
  obtain ⟨l, hl, rfl⟩ := hany
  rw [decAnyMap_obj hl] at hdec
  cases hdec
  have hfrom : createFromBytes (mapJson ci.rawResult).print = .ok r := by
    have h1 : createFromBytes (Json.obj (GoMap.ofList l)).print = .ok r := by
      unfold createFromBytes
      rw [create_decodeVersion hcr]
      exact hcr
    rw [hraw]
    simp only [Option.getD_some]
    by_cases he : GoMap.ofList l = []
    · rw [if_pos he]
      rw [he] at h1
      rw [← h1]
      rfl
    · rw [if_neg he]
      exact h1
  unfold cachedResultOf
  simp only [hcf, loadResult, hfrom]
  rfl

end Verif
