/- C34: version.ParsePrevResult. -/
import Verif.Props.PluginOutput

namespace Verif
open Spec
set_option linter.unusedSimpArgs false

/-- A configuration as a plugin gets it: decoded from some JSON text. -/
def Loaded (c : PluginConf) : Prop := ∃ b j, Json.parse b = some j ∧ decPluginConf j = some c

/-- C34, no prevResult: nothing changes. -/
theorem c34_absent (c : PluginConf) (h : c.rawPrev = none) : parsePrevResult c = (c, none) := by
  simp [parsePrevResult, h]

/-- C34, a prevResult: exactly one of error and result; a result has a version implemented by the result
type of the configuration's version; only the prevResult fields of the configuration change. -/
theorem c34_ok (c : PluginConf) (m : GoMap Json) (h : c.rawPrev = some m) :
    (∃ r, parsePrevResult c = ({ c with rawPrev := none, prevResult := some r }, none) ∧
        WellTyped r ∧ SameFormat c.cniVersion r.version) ∨
    (∃ e, parsePrevResult c = ({ c with rawPrev := none, prevResult := none }, some e)) := by
  simp only [parsePrevResult, h]
  split
  · rename_i r hr
    have := create_wellTyped hr
    exact .inl ⟨r, rfl, this.1, this.2⟩
  · exact .inr ⟨_, rfl⟩
  · exact .inr ⟨_, rfl⟩

/-- C34, an unsupported configuration version is always an error. -/
theorem c34_unsupported (c : PluginConf) (m : GoMap Json) (h : c.rawPrev = some m) (hv : c.cniVersion ≠ [])
    (hs : c.cniVersion ∉ specVersions) : ∃ e, (parsePrevResult c).2 = some e := by
  rcases c34_ok c m h with ⟨r, _, _, hf⟩ | ⟨e, he⟩
  · exfalso
    apply hs
    have sub : ∀ v, v ∈ old020 ∨ v ∈ mid040 ∨ v ∈ new100 → v ∈ specVersions := by
      intro v; simp only [old020, mid040, new100, specVersions, List.mem_cons, List.not_mem_nil, or_false]
      simp only [or_assoc]; exact id
    rcases hf with ⟨h1 | h1, _⟩ | ⟨h1, _⟩ | ⟨h1, _⟩
    · exact absurd h1 hv
    · exact sub _ (.inl h1)
    · exact sub _ (.inr (.inl h1))
    · exact sub _ (.inr (.inr h1))
  · exact ⟨e, by rw [he]⟩

/-! #### what the loaded prevResult looks like -/

theorem decAnyMap_inv {l : List Json} (hl : ∀ x ∈ l, x.WF) {cur r : Option (GoMap Json)}
    (h0 : ∀ m, cur = some m → GoMap.Sorted m ∧ (Json.obj m).WF) (h : decAll decAnyMap cur l = some r) :
    ∀ m, r = some m → GoMap.Sorted m ∧ (Json.obj m).WF := by
  induction l generalizing cur with
  | nil => simp [decAll_nil] at h; subst h; exact h0
  | cons x l ih =>
    rw [decAll_cons] at h
    cases hx : decAnyMap cur x with
    | none => simp [hx] at h
    | some c' =>
      rw [hx] at h
      simp only [Option.bind_some] at h
      refine ih (fun y hy => hl y (by simp [hy])) ?_ h
      intro m hm
      subst hm
      cases x <;> simp [decAnyMap] at hx
      rename_i ms
      obtain ⟨l', hl', rfl⟩ := hx
      have hxw := hl (.obj ms) (by simp)
      simp only [Json.WF] at hxw
      have hw' := Json.toAnyMembers_WF ms l' hxw hl'
      have hcur : GoMap.Sorted (cur.getD []) ∧ (Json.obj (cur.getD [])).WF := by
        cases cur with
        | none => exact ⟨trivial, by simp [Json.WF, Json.WFMembers]⟩
        | some m => exact h0 m rfl
      refine ⟨GoMap.sorted_insertAll hcur.1 _, ?_⟩
      have hc2 := hcur.2
      simp only [Json.WF] at hc2 ⊢
      rw [WFMembers_iff] at *
      have key : ∀ (l : List (Bytes × Json)) (m : GoMap Json), ∀ p ∈ GoMap.insertAll m l, p ∈ m ∨ p ∈ l := by
        intro l
        induction l with
        | nil => intro m p hp; exact .inl hp
        | cons q l ih =>
          intro m p hp
          rcases ih _ p hp with h | h
          · rcases GoMap.mem_insert h with h | h
            · exact .inr (by rw [h]; simp)
            · exact .inl h
          · exact .inr (by simp [h])
      intro p hp
      rcases key _ _ p hp with h | h
      · exact hc2 p h
      · exact hw' p h

theorem getField_WF {names : List Bytes} {f : Bytes} {j : Json} {ms : List (Bytes × Json)} (hj : j.WF)
    (hm : structMembers j = some ms) : ∀ x ∈ getField names f ms, x.WF := by
  intro x hx
  have : (Json.obj ms).WF := by
    cases j <;> simp [structMembers] at hm
    · subst hm; simp [Json.WF, Json.WFMembers]
    · subst hm; exact hj
  simp only [Json.WF] at this
  simp only [getField, List.mem_filterMap] at hx
  obtain ⟨p, hp, hx⟩ := hx
  split at hx
  · simp at hx; subst hx; exact (WFMembers_iff.mp this p hp).2
  · cases hx

theorem decStr_utf8 {l : List Json} (hl : ∀ x ∈ l, x.WF) {c w : Bytes} (hc : isUtf8 c = true)
    (h : decAll decStr c l = some w) : isUtf8 w = true := by
  induction l generalizing c with
  | nil => simp [decAll_nil] at h; exact h ▸ hc
  | cons x l ih =>
    rw [decAll_cons] at h
    cases x <;> simp [decStr] at h
    · exact ih (fun y hy => hl y (by simp [hy])) hc h
    · rename_i s
      refine ih (fun y hy => hl y (by simp [hy])) ?_ h
      have := hl (.str s) (by simp)
      simpa [Json.WF] using this

theorem Loaded.prev {c : PluginConf} (h : Loaded c) :
    isUtf8 c.cniVersion = true ∧ ∀ m, c.rawPrev = some m → GoMap.Sorted m ∧ (Json.obj m).WF := by
  obtain ⟨b, j, hb, hj⟩ := h
  have hw := Json.parse_WF hb
  simp only [decPluginConf, Option.bind_eq_bind, Option.bind_eq_some_iff] at hj
  obtain ⟨ms, h1, v, h2, _, _, _, _, _, _, _, _, _, _, p, h3, _, _, h4⟩ := hj
  simp only [Option.some.injEq] at h4
  subst h4
  exact ⟨decStr_utf8 (getField_WF hw h1) (by decide) h2, decAnyMap_inv (getField_WF hw h1) (by simp) h3⟩

theorem getField_two {m : GoMap Json} (hs : GoMap.Sorted m) {f k1 k2 : Bytes} (h12 : Bytes.lt k1 k2 = true)
    (hf : ∀ p ∈ m, fieldMatch [f] p.1 = some f → p.1 = k1 ∨ p.1 = k2)
    (h1 : fieldMatch [f] k1 = some f) (h2 : fieldMatch [f] k2 = some f) :
    getField [f] f m = (GoMap.get? m k1).toList ++ (GoMap.get? m k2).toList := by
  have hne : k1 ≠ k2 := by rintro rfl; rw [Bytes.lt_irrefl] at h12; cases h12
  induction m with
  | nil => simp [getField, GoMap.get?]
  | cons p m ih =>
    obtain ⟨k, v⟩ := p
    obtain ⟨hlt, hs'⟩ := hs
    have ih := ih hs' (fun q hq => hf q (by simp [hq]))
    rw [getField_cons, ih]
    simp only [GoMap.get?]
    by_cases e1 : k = k1
    · subst e1
      have hn : GoMap.get? m k = none := GoMap.get?_none_of_lt hlt
      simp [h1, hn, hne]
    · by_cases e2 : k = k2
      · subst e2
        have hn : GoMap.get? m k = none := GoMap.get?_none_of_lt hlt
        have hn1 : GoMap.get? m k1 = none := by
          apply GoMap.get?_none_of_lt
          intro q hq
          exact Bytes.lt_trans h12 (hlt q hq)
        simp [h2, hn, hn1, e1]
      · have : fieldMatch [f] k ≠ some f := fun hc => by
          rcases hf (k, v) (by simp) hc with h | h
          · exact e1 h
          · exact e2 h
        simp [this, e1, e2]

/-- C34, which version the result is read in. For a configuration decoded from JSON whose prevResult spells
the version key `cniVersion` or not at all: the result has the stated version if one is stated, and the
configuration's version (0.1.0 if that is empty) if none is (`null` counts as none). -/
theorem c34_version (c : PluginConf) (hl : Loaded c) (m : GoMap Json) (h : c.rawPrev = some m)
    (hspell : ∀ k v, (k, v) ∈ m → foldKey k = foldKey b!"cniVersion" → k = b!"cniVersion")
    (r : Result) (hr : parsePrevResult c = ({ c with rawPrev := none, prevResult := some r }, none)) :
    (∃ v, GoMap.get? m b!"cniVersion" = some (.str v) ∧ r.version = if v = [] then b!"0.1.0" else v) ∨
    ((GoMap.get? m b!"cniVersion" = none ∨ GoMap.get? m b!"cniVersion" = some .null) ∧
      r.version = if c.cniVersion = [] then b!"0.1.0" else c.cniVersion) := by
  obtain ⟨hu, hp⟩ := hl.prev
  obtain ⟨hs, hw⟩ := hp m h
  have hno : GoMap.get? m b!"CNIVersion" = none := by
    rw [GoMap.get?_none_iff]
    intro hk
    obtain ⟨⟨k, v⟩, hkv, rfl⟩ := List.mem_map.mp hk
    have := hspell _ v hkv (by show foldKey b!"CNIVersion" = foldKey b!"cniVersion"; decide)
    revert this; show ¬ (b!"CNIVersion" = b!"cniVersion"); decide
  simp only [parsePrevResult, h, hno, true_or, if_true] at hr
  split at hr
  · rename_i r' hc
    simp only [Prod.mk.injEq, PluginConf.mk.injEq, Option.some.injEq, true_and, and_true] at hr
    subst hr
    have hd := create_decodeVersion hc
    have hs' := GoMap.sorted_insert hs b!"CNIVersion" (Json.str c.cniVersion)
    have hw' : (Json.obj (GoMap.insert m b!"CNIVersion" (.str c.cniVersion))).WF := by
      simp only [Json.WF] at hw ⊢
      rw [WFMembers_iff] at *
      intro p hp
      rcases GoMap.mem_insert hp with rfl | hp
      · exact ⟨by show isUtf8 b!"CNIVersion" = true; decide, by simpa [Json.WF] using hu⟩
      · exact hw p hp
    have hfm : ∀ k, fieldMatch [b!"cniVersion"] k = some b!"cniVersion" → foldKey k = foldKey b!"cniVersion" := by
      intro k hk
      simp only [fieldMatch, List.mem_singleton] at hk
      split at hk
      · rename_i e; rw [e]
      · have := List.find?_some hk
        simp only [decide_eq_true_eq] at this
        exact this.symm
    have hg := getField_two hs' (f := b!"cniVersion") (k1 := b!"CNIVersion") (k2 := b!"cniVersion") (by decide) (by
      rintro ⟨k, v⟩ hp hk
      rcases GoMap.mem_insert hp with e | hp
      · simp only [Prod.mk.injEq] at e; exact .inl e.1
      · exact .inr (hspell k v hp (hfm k hk))) (by decide) (by decide)
    rw [GoMap.get?_insert_self, GoMap.get?_insert_ne _ _ (by decide)] at hg
    unfold decodeVersion at hd
    rw [Json.parse_print _ hw'] at hd
    simp only [structMembers, hg, Option.toList_some, List.cons_append, List.nil_append] at hd
    rw [decAll_cons] at hd
    simp only [decStr, Option.bind_some] at hd
    cases hv : GoMap.get? m b!"cniVersion" with
    | none =>
      rw [hv] at hd
      simp only [Option.toList_none, decAll_nil, Out.ok.injEq] at hd
      exact .inr ⟨.inl rfl, hd.symm⟩
    | some x =>
      rw [hv] at hd
      simp only [Option.toList_some, decAll_one] at hd
      cases x <;> simp [decStr] at hd
      · exact .inr ⟨.inr rfl, hd.symm⟩
      · rename_i s; exact .inl ⟨s, rfl, hd.symm⟩
  · simp at hr
  · simp at hr

theorem getField_spelled {m : GoMap Json} (hs : GoMap.Sorted m) {f k1 : Bytes}
    (hf : ∀ p ∈ m, fieldMatch [f] p.1 = some f → p.1 = k1) (h1 : fieldMatch [f] k1 = some f) :
    getField [f] f m = (GoMap.get? m k1).toList := by
  induction m with
  | nil => simp [getField, GoMap.get?]
  | cons p m ih =>
    obtain ⟨k, v⟩ := p
    obtain ⟨hlt, hs'⟩ := hs
    have ih := ih hs' (fun q hq => hf q (by simp [hq]))
    rw [getField_cons, ih]
    simp only [GoMap.get?]
    by_cases e1 : k = k1
    · subst e1
      have hn : GoMap.get? m k = none := GoMap.get?_none_of_lt hlt
      simp [h1, hn]
    · have : fieldMatch [f] k ≠ some f := fun hc => e1 (hf (k, v) (by simp) hc)
      simp [this, e1]

/-- C34, the same for a prevResult that spells the version key `CNIVersion` or not at all, which is how the code looks for it: an empty
version counts as none. -/
theorem c34_capital (c : PluginConf) (hl : Loaded c) (m : GoMap Json) (h : c.rawPrev = some m)
    (hspell : ∀ k v, (k, v) ∈ m → foldKey k = foldKey b!"cniVersion" → k = b!"CNIVersion")
    (r : Result) (hr : parsePrevResult c = ({ c with rawPrev := none, prevResult := some r }, none)) :
    (∃ v, v ≠ [] ∧ GoMap.get? m b!"CNIVersion" = some (.str v) ∧ r.version = v) ∨
    (GoMap.get? m b!"CNIVersion" = some .null ∧ r.version = b!"0.1.0") ∨
    ((GoMap.get? m b!"CNIVersion" = none ∨ GoMap.get? m b!"CNIVersion" = some (.str [])) ∧
      r.version = if c.cniVersion = [] then b!"0.1.0" else c.cniVersion) := by
  obtain ⟨hu, hp⟩ := hl.prev
  obtain ⟨hs, hw⟩ := hp m h
  have hfm : ∀ k, fieldMatch [b!"cniVersion"] k = some b!"cniVersion" → foldKey k = foldKey b!"cniVersion" := by
    intro k hk
    simp only [fieldMatch, List.mem_singleton] at hk
    split at hk
    · rename_i e; rw [e]
    · have := List.find?_some hk
      simp only [decide_eq_true_eq] at this
      exact this.symm
  have key : ∀ m' : GoMap Json, GoMap.Sorted m' → (Json.obj m').WF → (∀ p ∈ m', p.1 = b!"CNIVersion" ∨ p ∈ m) → ∀ x, GoMap.get? m' b!"CNIVersion" = some x →
      create c.cniVersion (Json.obj m').print = .ok r →
      (∃ v, x = .str v ∧ r.version = if v = [] then b!"0.1.0" else v) ∨ (x = .null ∧ r.version = b!"0.1.0") := by
    intro m' hs' hw' hm x hx hc
    have hd := create_decodeVersion hc
    have hg := getField_spelled hs' (f := b!"cniVersion") (k1 := b!"CNIVersion") (by
      rintro ⟨k, v⟩ hp hk
      rcases hm _ hp with e | hp
      · exact e
      · exact hspell k v hp (hfm k hk)) (by decide)
    rw [hx] at hg
    unfold decodeVersion at hd
    rw [Json.parse_print _ hw'] at hd
    simp only [structMembers, hg, Option.toList_some, decAll_one] at hd
    cases x <;> simp [decStr] at hd
    · exact .inr ⟨rfl, hd.symm⟩
    · exact .inl ⟨_, rfl, hd.symm⟩
  simp only [parsePrevResult, h] at hr
  split at hr
  · rename_i r' hc
    simp only [Prod.mk.injEq, PluginConf.mk.injEq, Option.some.injEq, true_and, and_true] at hr
    subst hr
    split at hc
    · rename_i hv
      right; right
      refine ⟨hv, ?_⟩
      have hw' : (Json.obj (GoMap.insert m b!"CNIVersion" (.str c.cniVersion))).WF := by
        simp only [Json.WF] at hw ⊢
        rw [WFMembers_iff] at *
        intro p hp
        rcases GoMap.mem_insert hp with rfl | hp
        · exact ⟨by show isUtf8 b!"CNIVersion" = true; decide, by simpa [Json.WF] using hu⟩
        · exact hw p hp
      rcases key _ (GoMap.sorted_insert hs _ _) hw' (fun p hp => by
        rcases GoMap.mem_insert hp with rfl | hp
        · exact .inl rfl
        · exact .inr hp) _ (GoMap.get?_insert_self ..) hc with ⟨v, hx, hv⟩ | ⟨hx, -⟩
      · cases hx; exact hv
      · cases hx
    · rename_i hv
      cases hx : GoMap.get? m b!"CNIVersion" with
      | none => exact absurd (.inl hx) hv
      | some x =>
        rcases key m hs hw (fun p hp => .inr hp) x hx hc with ⟨v, rfl, hrv⟩ | ⟨rfl, hrv⟩
        · have hne : v ≠ [] := by rintro rfl; exact hv (.inr hx)
          rw [if_neg hne] at hrv
          exact .inl ⟨v, hne, rfl, hrv⟩
        · exact .inr (.inl ⟨rfl, hrv⟩)
  · simp at hr
  · simp at hr

/-- C34, a prevResult stating a version of another result type is an error. -/
theorem c34_mismatch (c : PluginConf) (hl : Loaded c) (m : GoMap Json) (h : c.rawPrev = some m)
    (hspell : ∀ k v, (k, v) ∈ m → foldKey k = foldKey b!"cniVersion" → k = b!"cniVersion")
    (v : Bytes) (hv : GoMap.get? m b!"cniVersion" = some (.str v)) (hne : v ≠ [])
    (hf : ¬ SameFormat c.cniVersion v) : ∃ e, (parsePrevResult c).2 = some e := by
  rcases c34_ok c m h with ⟨r, hr, _, hs⟩ | ⟨e, he⟩
  · exfalso
    rcases c34_version c hl m h hspell r hr with ⟨w, hw, hrv⟩ | ⟨hw, _⟩
    · rw [hv] at hw; cases hw
      rw [hrv, if_neg hne] at hs
      exact hf hs
    · rw [hv] at hw; simp at hw
  · exact ⟨e, by rw [he]⟩

/-- A loaded configuration with a prevResult that states its version, one that does not, and one of the wrong
format; the hypotheses of the theorems above hold for them. -/
def prevConf (v : Bytes) (m : GoMap Json) : PluginConf := { cniVersion := v, rawPrev := some m }

example : Loaded (prevConf b!"0.4.0" [(b!"cniVersion", .str b!"0.3.1")]) ∧
    (parsePrevResult (prevConf b!"0.4.0" [(b!"cniVersion", .str b!"0.3.1")])).1.prevResult = some (.v040 { cniVersion := b!"0.3.1" }) ∧
    Loaded (prevConf b!"0.4.0" []) ∧
    (parsePrevResult (prevConf b!"0.4.0" [])).1.prevResult = some (.v040 { cniVersion := b!"0.4.0" }) ∧
    ((parsePrevResult (prevConf b!"0.4.0" [(b!"cniVersion", .str b!"1.0.0")])).2.isSome = true) := by
  refine ⟨⟨b!"{\"cniVersion\":\"0.4.0\",\"prevResult\":{\"cniVersion\":\"0.3.1\"}}", _, rfl, by decide +kernel⟩, by decide +kernel,
    ⟨b!"{\"cniVersion\":\"0.4.0\",\"prevResult\":{}}", _, rfl, by decide +kernel⟩, by decide +kernel, by decide +kernel⟩

example : Loaded (prevConf b!"0.4.0" [(b!"CNIVersion", .str [])]) ∧
    (parsePrevResult (prevConf b!"0.4.0" [(b!"CNIVersion", .str [])])).1.prevResult = some (.v040 { cniVersion := b!"0.4.0" }) ∧
    (parsePrevResult (prevConf b!"0.4.0" [(b!"CNIVersion", .str b!"0.3.0")])).1.prevResult = some (.v040 { cniVersion := b!"0.3.0" }) := by
  refine ⟨⟨b!"{\"cniVersion\":\"0.4.0\",\"prevResult\":{\"CNIVersion\":\"\"}}", _, rfl, by decide +kernel⟩, by decide +kernel, by decide +kernel⟩

/-- A finding: contrary to the comment in the code, an *empty* `cniVersion` in the prevResult is not replaced
by the configuration's version (the code looks for the key `CNIVersion`), so parsing fails. -/
theorem c34_empty_version_rejected : Loaded (prevConf b!"0.4.0" [(b!"cniVersion", .str [])]) ∧
    ∃ e, (parsePrevResult (prevConf b!"0.4.0" [(b!"cniVersion", .str [])])).2 = some e := by
  refine ⟨⟨b!"{\"cniVersion\":\"0.4.0\",\"prevResult\":{\"cniVersion\":\"\"}}", _, rfl, by decide +kernel⟩, ?_⟩
  have : (parsePrevResult (prevConf b!"0.4.0" [(b!"cniVersion", .str [])])).2.isSome = true := by decide +kernel
  exact Option.isSome_iff_exists.mp this

end Verif
