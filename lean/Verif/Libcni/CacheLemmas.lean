/- Facts about the cache: its files read back, and its paths. -/
import Verif.Libcni.Cache
import Verif.Libcni.ProgLemmas
import Verif.Types.ResultNums

namespace Verif
set_option linter.unusedSimpArgs false

/-- Proof device: models no code. -/
def sanitizePair (p : Bytes × Bytes) : Bytes × Bytes := (sanitize p.1, sanitize p.2)

/-- What JSON can carry of a cache entry: invalid UTF-8 replaced. Proof device: models no code. -/
def CachedInfo.clean (c : CachedInfo) : CachedInfo :=
  { kind := sanitize c.kind, containerID := sanitize c.containerID, config := c.config, ifName := sanitize c.ifName,
    networkName := sanitize c.networkName, netNS := sanitize c.netNS, cniArgs := c.cniArgs.map (List.map sanitizePair),
    capArgs := Json.cleanMembers c.capArgs, rawResult := c.rawResult.map Json.cleanMembers }

theorem jopt_clean (b : Bool) (k : Bytes) (v : Json) (hk : sanitize k = k) :
    Json.cleanMembers (jopt b k v) = jopt b k v.clean := by
  cases b <;> simp [jopt, Json.cleanMembers, hk]

theorem cleanMembers_append (a b : List (Bytes × Json)) :
    Json.cleanMembers (a ++ b) = Json.cleanMembers a ++ Json.cleanMembers b := by
  simp [cleanMembers_eq]

theorem sanitize_ne_nil {s : Bytes} : sanitize s = [] ↔ s = [] := by
  constructor
  · intro h
    cases s with
    | nil => rfl
    | cons c s =>
      simp only [sanitize, List.length_cons, sanitizeF] at h
      split at h <;> simp_all
  · rintro rfl; rfl

theorem jBytes_clean (b : Bytes) : (jBytes b).clean = jBytes b := Json.clean_of_WF _ (jBytes_WF b)

theorem jopt_congr {b b' : Bool} {k : Bytes} {v : Json} (h : b = true ↔ b' = true) : jopt b k v = jopt b' k v := by
  cases b <;> cases b' <;> simp_all [jopt]

theorem CachedInfo.json_clean (c : CachedInfo) : c.json.clean = c.clean.json := by
  have k1 : Json.cleanList ((c.cniArgs.getD []).map jPair) = (c.clean.cniArgs.getD []).map jPair := by
    cases hh : c.cniArgs <;> simp [CachedInfo.clean, hh, cleanList_eq, jPair, sanitizePair, Json.clean, Json.cleanList]
  have k2 : Json.cleanMembers (c.rawResult.getD []) = c.clean.rawResult.getD [] := by
    cases hh : c.rawResult <;> simp [CachedInfo.clean, hh, cleanMembers_eq]
  simp only [CachedInfo.json, Json.clean, cleanMembers_append]
  rw [jopt_clean _ _ _ (by decide), jopt_clean _ _ _ (by decide), jopt_clean _ _ _ (by decide), jopt_clean _ _ _ (by decide)]
  simp only [Json.clean, k1, k2, Json.cleanMembers, jBytes_clean]
  congr 1
  congr 1
  · congr 1
    · congr 1
      · congr 1
        apply jopt_congr
        simp [CachedInfo.clean, sanitize_ne_nil]
      · apply jopt_congr
        cases hh : c.cniArgs <;> simp [CachedInfo.clean, hh]
    · apply jopt_congr
      simp [CachedInfo.clean, cleanMembers_eq]
  · apply jopt_congr
    cases hh : c.rawResult <;> simp [CachedInfo.clean, hh, cleanMembers_eq]

theorem CachedInfo.json_numsOK {c : CachedInfo} (h1 : Json.NumsOKMembers c.capArgs)
    (h2 : Json.NumsOKMembers (c.rawResult.getD [])) : c.json.NumsOK := by
  simp only [CachedInfo.json, Json.NumsOK]
  refine numsOK_append (numsOK_append (numsOK_append (numsOK_append ?_ ?_) ?_) ?_) ?_
  · exact ⟨trivial, trivial, trivial, trivial, trivial, trivial⟩
  · exact numsOK_jopt trivial
  · exact numsOK_jopt (numsOK_arr (f := jPair) (fun a => ⟨trivial, trivial, trivial⟩) _)
  · exact numsOK_jopt h1
  · exact numsOK_jopt h2

theorem decPairs_jPair (l : List (Bytes × Bytes)) : (l.map jPair).mapM decPair = some l := by
  induction l with
  | nil => rfl
  | cons p l ih => simp [ih, jPair, decPair, decStr]

theorem decAnyMap_obj {ms l : List (Bytes × Json)} (h : Json.toAnyMembers ms = some l) :
    decAnyMap none (.obj ms) = some (some (GoMap.ofList l)) := by
  simp [decAnyMap, h, GoMap.ofList, GoMap.insertAll]

/-- Decoding what was encoded. -/
theorem decCachedInfo_json {c : CachedInfo} {caps res : List (Bytes × Json)} (h1 : Json.toAnyMembers c.capArgs = some caps)
    (h2 : Json.toAnyMembers (c.rawResult.getD []) = some res) :
    decCachedInfo c.json = some { c with
      cniArgs := if c.cniArgs.getD [] = [] then none else c.cniArgs
      capArgs := GoMap.ofList caps
      rawResult := if c.rawResult.getD [] = [] then none else some (GoMap.ofList res) } := by
  have hc : ∀ x, Json.toAnyMembers [] = some x → x = [] := by intro x hx; simpa [Json.toAnyMembers] using hx.symm
  simp only [decCachedInfo, CachedInfo.json, structMembers, Option.bind_eq_bind, Option.bind_some, getField_append, getField_jopt,
    getField_cons, getField_nil]
  have m : ∀ f ∈ cachedFields, ∀ k ∈ cachedFields, fieldMatch cachedFields k = some f ↔ k = f := by decide
  have mm : ∀ f k : Bytes, f ∈ cachedFields → k ∈ cachedFields → (fieldMatch cachedFields k = some f) = (k = f) :=
    fun f k hf hk => propext (m f hf k hk)
  simp only [mm _ _ (by decide : b!"kind" ∈ cachedFields), mm _ _ (by decide : b!"containerId" ∈ cachedFields),
    mm _ _ (by decide : b!"config" ∈ cachedFields), mm _ _ (by decide : b!"ifName" ∈ cachedFields),
    mm _ _ (by decide : b!"networkName" ∈ cachedFields), mm _ _ (by decide : b!"netns" ∈ cachedFields),
    mm _ _ (by decide : b!"cniArgs" ∈ cachedFields), mm _ _ (by decide : b!"capabilityArgs" ∈ cachedFields),
    mm _ _ (by decide : b!"result" ∈ cachedFields),
    (by decide : b!"kind" ∈ cachedFields), (by decide : b!"containerId" ∈ cachedFields), (by decide : b!"config" ∈ cachedFields),
    (by decide : b!"ifName" ∈ cachedFields), (by decide : b!"networkName" ∈ cachedFields), (by decide : b!"netns" ∈ cachedFields),
    (by decide : b!"cniArgs" ∈ cachedFields), (by decide : b!"capabilityArgs" ∈ cachedFields), (by decide : b!"result" ∈ cachedFields)]
  simp (decide := true) only [if_false, if_true,
    List.nil_append, List.append_nil, List.singleton_append, decAll_one, decStr, decBytes_jBytes, Option.bind_some]
  simp only [decide_eq_true_eq, ne_eq, ite_not]
  have d1 : decAll decStr [] (if c.netNS = [] then [] else [Json.str c.netNS]) = some c.netNS := by
    split
    · rename_i h; rw [h]; rfl
    · rw [decAll_one]; rfl
  have d2 : decAll decPairs none (if c.cniArgs.getD [] = [] then [] else [Json.arr ((c.cniArgs.getD []).map jPair)])
      = some (if c.cniArgs.getD [] = [] then none else c.cniArgs) := by
    split
    · rfl
    · rename_i h
      rw [decAll_one]
      cases hh : c.cniArgs with
      | none => simp [hh] at h
      | some l => simp only [decPairs, Option.getD_some, decPairs_jPair, Option.map_some]
  have d3 : decAll decAnyMap none (if c.capArgs = [] then [] else [Json.obj c.capArgs])
      = some (if c.capArgs = [] then none else some (GoMap.ofList caps)) := by
    split
    · rfl
    · rw [decAll_one, decAnyMap_obj h1]
  have d4 : decAll decAnyMap none (if c.rawResult.getD [] = [] then [] else [Json.obj (c.rawResult.getD [])])
      = some (if c.rawResult.getD [] = [] then none else some (GoMap.ofList res)) := by
    split
    · rfl
    · rw [decAll_one, decAnyMap_obj h2]
  have d5 : (if c.capArgs = [] then none else some (GoMap.ofList caps)).getD [] = GoMap.ofList caps := by
    split
    · rename_i h; rw [h] at h1; rw [hc _ h1]; rfl
    · rfl
  simp only [d1, d2, d3, d4, d5, Option.bind_some]

/-- A cache file reads back as what was stored, as far as JSON carries it. -/
theorem readCachedInfo_json {c : CachedInfo} {caps res : List (Bytes × Json)} (n1 : Json.NumsOKMembers c.capArgs)
    (n2 : Json.NumsOKMembers (c.rawResult.getD [])) (h1 : Json.toAnyMembers (Json.cleanMembers c.capArgs) = some caps)
    (h2 : Json.toAnyMembers (Json.cleanMembers (c.rawResult.getD [])) = some res) :
    readCachedInfo c.json.print = some { c.clean with
      cniArgs := if c.cniArgs.getD [] = [] then none else c.cniArgs.map (List.map sanitizePair)
      capArgs := GoMap.ofList caps
      rawResult := if c.rawResult.getD [] = [] then none else some (GoMap.ofList res) } := by
  have h2' : Json.toAnyMembers (c.clean.rawResult.getD []) = some res := by
    rw [← h2]; congr 1
    cases hr : c.rawResult <;> simp [CachedInfo.clean, hr, cleanMembers_eq]
  rw [readCachedInfo, Json.parse_print_clean _ (CachedInfo.json_numsOK n1 n2), CachedInfo.json_clean, Option.bind_some,
    decCachedInfo_json (c := c.clean) h1 h2']
  have e2 : (c.clean.cniArgs.getD [] = []) ↔ (c.cniArgs.getD [] = []) := by
    cases hh : c.cniArgs <;> simp [CachedInfo.clean, hh]
  have e4 : (c.clean.rawResult.getD [] = []) ↔ (c.rawResult.getD [] = []) := by
    cases hh : c.rawResult <;> simp [CachedInfo.clean, hh, cleanMembers_eq]
  simp only [e2, e4]
  rfl

end Verif
