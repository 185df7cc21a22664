/- C54: what a plugin sees when it decodes its standard input. -/
import Verif.Spec.PluginView
import Verif.Props.PrevResult
import Verif.Props.Stdin
import Verif.Props.PluginPrint
import Verif.Props.CacheUse

namespace Verif
open Spec
set_option linter.unusedSimpArgs false
variable {flt : Bool}

/-! ### fields spelled plainly -/

theorem getField_plain {names : List Bytes} {f : Bytes} {ms : List (Bytes × Json)} (hp : Plainly names ms) (hf : f ∈ names) :
    getField names f ms = (GoMap.get? ms f).toList := by
  have key : ∀ l : List (Bytes × Json), (l.map Prod.fst).Nodup → (∀ m ∈ l, ∀ f ∈ names, foldKey m.1 = foldKey f → m.1 = f) →
      getField names f l = (GoMap.get? l f).toList := by
    intro l hn hs
    induction l with
    | nil => rfl
    | cons m l ih =>
      obtain ⟨k, v⟩ := m
      simp only [List.map_cons, List.nodup_cons] at hn
      have hm : fieldMatch names k = some f ↔ k = f := by
        constructor
        · intro h
          simp only [fieldMatch] at h
          split at h
          · simpa using h
          · have := List.find?_some h
            simp only [decide_eq_true_eq] at this
            exact hs (k, v) (by simp) f hf this.symm
        · rintro rfl; simp [fieldMatch, hf]
      rw [getField_cons, ih hn.2 (fun m hm => hs m (by simp [hm]))]
      by_cases hk : k = f
      · subst hk
        have : GoMap.get? l k = none := GoMap.get?_none_iff.2 hn.1
        simp [hm, GoMap.get?, this]
      · simp [hm, GoMap.get?, hk]
  exact key ms hp.once hp.spelled

/-- `M` says about `f` what `ms` says, as Go decodes it. -/
def Says (ms M : List (Bytes × Json)) (f : Bytes) : Prop :=
  (GoMap.get? ms f = none ∧ GoMap.get? M f = none) ∨
    ∃ v w, GoMap.get? ms f = some v ∧ GoMap.get? M f = some w ∧ v.toAny = some w

theorem says_of_keeps {ms M : List (Bytes × Json)} {f : Bytes} (h : Keeps ms M f) (hm : (ms.map Prod.fst).Nodup)
    (hM : (M.map Prod.fst).Nodup) : Says ms M f := by
  cases hg : GoMap.get? ms f with
  | none =>
    refine .inl ⟨hg, GoMap.get?_none_iff.2 ?_⟩
    have := h.2 (fun m hm hc => GoMap.get?_none_iff.1 hg (List.mem_map.2 ⟨m, hm, hc⟩))
    intro hc
    obtain ⟨m, hm, hc⟩ := List.mem_map.1 hc
    exact this m hm hc
  | some v =>
    obtain ⟨w, h1, h2⟩ := h.1 v (lastMember_of_mem hm (GoMap.get?_some_mem hg))
    exact .inr ⟨v, w, hg, GoMap.get?_of_nodup hM h2, h1⟩

theorem says_of_toAny {ms m : List (Bytes × Json)} {f : Bytes} (h : Json.toAnyMembers ms = some m) (hm : (ms.map Prod.fst).Nodup) :
    Says ms (GoMap.ofList m) f := by
  have := toAnyMembers_get? h f
  rw [GoMap.get?_reverse_of_nodup hm] at this
  cases hg : GoMap.get? ms f with
  | none => rw [hg] at this; exact .inl ⟨hg, this⟩
  | some v =>
    rw [hg] at this
    simp only [Option.bind_some] at this
    refine .inr ?_
    cases hw : v.toAny with
    | none =>
      exfalso
      have hmem := GoMap.get?_some_mem hg
      clear this hg hm
      induction ms generalizing m with
      | nil => cases hmem
      | cons p ms ih =>
        obtain ⟨k, j⟩ := p
        simp only [Json.toAnyMembers] at h
        split at h
        · rename_i j' l' h1 h2
          rcases List.mem_cons.1 hmem with e | hmem
          · cases e; rw [hw] at h1; cases h1
          · exact ih h2 hmem
        · cases h
    | some w => rw [hw] at this; exact ⟨v, w, hg, this, hw⟩

theorem plainly_toAny {names : List Bytes} {ms m : List (Bytes × Json)} (h : Json.toAnyMembers ms = some m) (hp : Plainly names ms) :
    Plainly names (GoMap.ofList m) := by
  refine ⟨GoMap.sorted_nodup (GoMap.sorted_ofList m), ?_⟩
  intro p hpm f hf hk
  have := ofList_mem p hpm
  have hk' : p.1 ∈ ms.map Prod.fst := by rw [← toAnyMembers_keys h]; exact List.mem_map.2 ⟨p, this, rfl⟩
  obtain ⟨q, hq, he⟩ := List.mem_map.1 hk'
  rw [← he]
  exact hp.spelled q hq f hf (by rw [he]; exact hk)

/-- A field is decoded the same from both. -/
theorem decField_same {α : Type} {dec : α → Json → Option α} {i : α} {names : List Bytes} {f : Bytes} {ms M : List (Bytes × Json)}
    (hp : Plainly names ms) (hP : Plainly names M) (hf : f ∈ names) (hs : Says ms M f)
    (hd : ∀ v w, (f, v) ∈ ms → v.toAny = some w → dec i w = dec i v) :
    decAll dec i (getField names f M) = decAll dec i (getField names f ms) := by
  rw [getField_plain hp hf, getField_plain hP hf]
  rcases hs with ⟨h1, h2⟩ | ⟨v, w, h1, h2, h3⟩
  · rw [h1, h2]
  · rw [h1, h2]
    simp only [Option.toList_some, decAll_one]
    exact hd v w (GoMap.get?_some_mem h1) h3

/-! ### values that are decoded the same after going through `interface{}` -/

theorem decStr_toAny {i : Bytes} {v w : Json} (h : v.toAny = some w) : decStr i w = decStr i v := by
  cases v <;> simp [Json.toAny] at h
  all_goals first
    | subst h; rfl
    | (obtain ⟨a, _, rfl⟩ := h; rfl)

theorem decStrElems_toAny {l l' : List Json} (h : Json.toAnyList l = some l') : decStrElems l' = decStrElems l := by
  induction l generalizing l' with
  | nil => simp [Json.toAnyList] at h; subst h; rfl
  | cons v l ih =>
    simp only [Json.toAnyList] at h
    split at h
    · rename_i w l'' h1 h2
      simp only [Option.some.injEq] at h
      subst h
      have := ih h2
      cases v <;> simp [Json.toAny] at h1
      all_goals first
        | (subst h1; simp only [decStrElems, this])
        | (obtain ⟨a, _, rfl⟩ := h1; simp only [decStrElems])
    · cases h

theorem decStrList_toAny {i : List Bytes} {v w : Json} (h : v.toAny = some w) : decStrList i w = decStrList i v := by
  cases v <;> simp [Json.toAny] at h
  case arr l => obtain ⟨l', h1, rfl⟩ := h; simp only [decStrList]; exact decStrElems_toAny h1
  all_goals first
    | subst h; rfl
    | (obtain ⟨a, _, rfl⟩ := h; rfl)

theorem structMembers_none_toAny {v w : Json} (h : structMembers v = none) (hw : v.toAny = some w) : structMembers w = none := by
  cases v <;> simp [structMembers] at h <;> simp [Json.toAny] at hw
  all_goals first
    | subst hw; rfl
    | (obtain ⟨a, _, rfl⟩ := hw; rfl)

theorem decIpam_toAny {i : Bytes} {v w : Json} (hp : ∀ is, v = .obj is → Plainly [b!"type"] is) (h : v.toAny = some w) :
    decIpam i w = decIpam i v := by
  cases hs : structMembers v with
  | none => simp [decIpam, hs, structMembers_none_toAny hs h]
  | some ms =>
    rcases structMembers_toAny hs h with ⟨rfl, rfl⟩ | ⟨m, rfl, hm, rfl⟩
    · rfl
    · have hp := hp ms rfl
      simp only [decIpam, structMembers, Option.bind_eq_bind, Option.bind_some]
      exact decField_same hp (plainly_toAny hm hp) (by simp) (says_of_toAny hm hp.once) (fun _ _ _ h => decStr_toAny h)

theorem decDns_toAny {i : Dns} {v w : Json}
    (hp : ∀ ds, v = .obj ds → Plainly [b!"nameservers", b!"domain", b!"search", b!"options"] ds) (h : v.toAny = some w) :
    decDns i w = decDns i v := by
  cases hs : structMembers v with
  | none => simp [decDns, hs, structMembers_none_toAny hs h]
  | some ms =>
    rcases structMembers_toAny hs h with ⟨rfl, rfl⟩ | ⟨m, rfl, hm, rfl⟩
    · rfl
    · have hp := hp ms rfl
      have hP := plainly_toAny hm hp
      have hl : ∀ (i : List Bytes) f, f ∈ dnsFields →
          decAll decStrList i (getField dnsFields f (GoMap.ofList m)) = decAll decStrList i (getField dnsFields f ms) :=
        fun i f hf => decField_same hp hP hf (says_of_toAny hm hp.once) (fun _ _ _ h => decStrList_toAny h)
      have hs : decAll decStr i.domain (getField dnsFields b!"domain" (GoMap.ofList m))
          = decAll decStr i.domain (getField dnsFields b!"domain" ms) :=
        decField_same hp hP (by decide) (says_of_toAny hm hp.once) (fun _ _ _ h => decStr_toAny h)
      simp only [decDns, structMembers, Option.bind_eq_bind, Option.bind_some, hl _ b!"nameservers" (by decide),
        hl _ b!"search" (by decide), hl _ b!"options" (by decide), hs]

theorem decAttachment_toAny {v w : Json} (hp : ∀ as, v = .obj as → Plainly [b!"containerID", b!"ifname"] as) (h : v.toAny = some w) :
    decAttachment w = decAttachment v := by
  cases hs : structMembers v with
  | none => simp [decAttachment, hs, structMembers_none_toAny hs h]
  | some ms =>
    rcases structMembers_toAny hs h with ⟨rfl, rfl⟩ | ⟨m, rfl, hm, rfl⟩
    · rfl
    · have hp := hp ms rfl
      have hP := plainly_toAny hm hp
      have hl : ∀ f, f ∈ [b!"containerID", b!"ifname"] →
          decAll decStr [] (getField [b!"containerID", b!"ifname"] f (GoMap.ofList m)) = decAll decStr [] (getField [b!"containerID", b!"ifname"] f ms) :=
        fun f hf => decField_same hp hP hf (says_of_toAny hm hp.once) (fun _ _ _ h => decStr_toAny h)
      simp only [decAttachment, structMembers, Option.bind_eq_bind, Option.bind_some, hl b!"containerID" (by decide), hl b!"ifname" (by decide)]

theorem mapM_attach_toAny {l l' : List Json} (hp : ∀ as, .obj as ∈ l → Plainly [b!"containerID", b!"ifname"] as)
    (h : Json.toAnyList l = some l') : l'.mapM decAttachment = l.mapM decAttachment := by
  induction l generalizing l' with
  | nil => simp [Json.toAnyList] at h; subst h; rfl
  | cons v l ih =>
    simp only [Json.toAnyList] at h
    split at h
    · rename_i w l'' h1 h2
      simp only [Option.some.injEq] at h
      subst h
      simp only [List.mapM_cons, ih (fun as ha => hp as (by simp [ha])) h2,
        decAttachment_toAny (fun as ha => hp as (by simp [ha])) h1]
    · cases h

theorem decAttachments_toAny {i : List GCAttachment} {v w : Json}
    (hp : ∀ l, v = .arr l → ∀ as, .obj as ∈ l → Plainly [b!"containerID", b!"ifname"] as) (h : v.toAny = some w) :
    decList decAttachment i w = decList decAttachment i v := by
  cases v <;> simp [Json.toAny] at h
  case arr l => obtain ⟨l', h1, rfl⟩ := h; simp only [decList]; exact mapM_attach_toAny (hp l rfl) h1
  all_goals first
    | subst h; rfl
    | (obtain ⟨a, _, rfl⟩ := h; rfl)

theorem decAnyMap_toAny {v w : Json} (h : v.toAny = some w) : decAnyMap none w = decAnyMap none v := by
  cases v <;> simp [Json.toAny] at h
  case obj l =>
    obtain ⟨l', h1, rfl⟩ := h
    simp only [decAnyMap, h1, Option.map_some]
    have : Json.toAnyMembers (GoMap.ofList l') = some (GoMap.ofList l') :=
      toAnyMembers_self fun m hm => Json.toAnyMembers_idem l l' h1 m (ofList_mem m hm)
    simp only [this, Option.map_some, Option.getD_none]
    exact congrArg (fun x => some (some x)) (GoMap.ofList_of_sorted (GoMap.sorted_ofList _))
  all_goals first
    | subst h; rfl
    | (obtain ⟨a, _, rfl⟩ := h; rfl)

theorem decBoolMap_toAny_eq {v w : Json} (h : v.toAny = some w) (hs : (decBoolMap [] v).isSome = true) :
    decBoolMap [] w = decBoolMap [] v := by
  obtain ⟨r, hr⟩ := Option.isSome_iff_exists.1 hs
  rw [hr, decBoolMap_toAny hr h]

/-! ### the whole configuration -/

theorem plainly_kept {fields : List Bytes} {ms M : List (Bytes × Json)} {ks : List Bytes} (hp : Plainly fields ms)
    (hM : (M.map Prod.fst).Nodup) (hk : ∀ k, k ∉ ks → Keeps ms M k) (hks : ∀ k ∈ ks, ∀ f ∈ fields, foldKey k = foldKey f → k = f) :
    Plainly fields M := by
  refine ⟨hM, ?_⟩
  intro m hm f hf he
  by_cases hin : m.1 ∈ ks
  · exact hks _ hin f hf he
  · have := hk _ hin
    by_cases hms : ∃ q ∈ ms, q.1 = m.1
    · obtain ⟨q, hq, e⟩ := hms
      rw [← e]
      exact hp.spelled q hq f hf (by rw [e]; exact he)
    · exact absurd rfl (this.2 (fun q hq e => hms ⟨q, hq, e⟩) m hm)

/-- The fields of a configuration other than the injected ones. -/
theorem conf_fields {ms M : List (Bytes × Json)} {c0 c : PluginConf} (hp : Plainly pluginConfFields ms) (hP : Plainly pluginConfFields M)
    (hi : ∀ is, (b!"ipam", .obj is) ∈ ms → Plainly [b!"type"] is)
    (hdn : ∀ ds, (b!"dns", .obj ds) ∈ ms → Plainly [b!"nameservers", b!"domain", b!"search", b!"options"] ds)
    (ha : ∀ l, (b!"cni.dev/valid-attachments", .arr l) ∈ ms → ∀ as, .obj as ∈ l → Plainly [b!"containerID", b!"ifname"] as)
    (h0 : decPluginConf (.obj ms) = some c0) (h : decPluginConf (.obj M) = some c) :
    (∀ s, (b!"name", .str s) ∈ M → c.name = s) ∧ (∀ s, (b!"cniVersion", .str s) ∈ M → c.cniVersion = s) ∧
    (Says ms M b!"type" → c.type = c0.type) ∧ (Says ms M b!"capabilities" → c.capabilities = c0.capabilities) ∧
    (Says ms M b!"ipam" → c.ipamType = c0.ipamType) ∧ (Says ms M b!"dns" → c.dns = c0.dns) ∧
    (Says ms M b!"prevResult" → c.rawPrev = c0.rawPrev) ∧
    (∀ j, (b!"prevResult", j) ∈ M → decAnyMap none j = some c.rawPrev) ∧
    (Says ms M b!"cni.dev/valid-attachments" → c.validAttachments = c0.validAttachments) ∧
    (∀ j, (b!"cni.dev/valid-attachments", j) ∈ M → decList decAttachment [] j = some c.validAttachments) ∧
    c.prevResult = none ∧ c0.prevResult = none := by
  simp only [decPluginConf, structMembers, Option.bind_eq_bind, Option.bind_some, Option.bind_eq_some_iff] at h h0
  obtain ⟨v, hv, n, hn, t, ht, ca, hca, ip, hip, d, hdd, p, hpv, a, haa, he⟩ := h
  obtain ⟨v0, hv0, n0, hn0, t0, ht0, ca0, hca0, ip0, hip0, d0, hd0, p0, hp0, a0, ha0, he0⟩ := h0
  simp only [Option.some.injEq] at he he0
  subst he; subst he0
  have one : ∀ {α : Type} {dec : α → Json → Option α} {i r : α} {f : Bytes} {j : Json}, f ∈ pluginConfFields →
      decAll dec i (getField pluginConfFields f M) = some r → (f, j) ∈ M → dec i j = some r := by
    intro α dec i r f j hf h hj
    rw [getField_plain hP hf, GoMap.get?_of_nodup hP.once hj] at h
    simpa [decAll_one] using h
  refine ⟨?_, ?_, ?_, ?_, ?_, ?_, ?_, ?_, ?_, ?_, rfl, rfl⟩
  · intro s hs; have := one (by decide) hn hs; simpa [decStr] using this.symm
  · intro s hs; have := one (by decide) hv hs; simpa [decStr] using this.symm
  · intro hs
    have := decField_same (dec := decStr) (i := []) hp hP (by decide) hs (fun _ _ _ h => decStr_toAny h)
    rw [ht, ht0] at this; simpa using this
  · intro hs
    have := decField_same (dec := decBoolMap) (i := []) hp hP (by decide) hs (fun v w hm h => decBoolMap_toAny_eq h (by
      rw [getField_plain hp (by decide), GoMap.get?_of_nodup hp.once hm] at hca0
      rw [show decBoolMap [] v = some ca0 by simpa [decAll_one] using hca0]; rfl))
    rw [hca, hca0] at this; simpa using this
  · intro hs
    have := decField_same (dec := decIpam) (i := []) hp hP (by decide) hs
      (fun v w hm h => decIpam_toAny (fun is e => hi is (by rw [← e]; exact hm)) h)
    rw [hip, hip0] at this; simpa using this
  · intro hs
    have := decField_same (dec := decDns) (i := {}) hp hP (by decide) hs
      (fun v w hm h => decDns_toAny (fun is e => hdn is (by rw [← e]; exact hm)) h)
    rw [hdd, hd0] at this; simpa using this
  · intro hs
    have := decField_same (dec := decAnyMap) (i := none) hp hP (by decide) hs (fun v w hm h => decAnyMap_toAny h)
    rw [hpv, hp0] at this; simpa using this
  · intro j hj; exact one (by decide) hpv hj
  · intro hs
    have := decField_same (dec := decList decAttachment) (i := []) hp hP (by decide) hs
      (fun v w hm h => decAttachments_toAny (fun l e => ha l (by rw [← e]; exact hm)) h)
    rw [haa, ha0] at this; simpa using this
  · intro j hj; exact one (by decide) haa hj

/-! ### the previous result -/

theorem getField_version_insert {names : List Bytes} (hf : b!"cniVersion" ∈ names)
    (hd : ∀ a ∈ names, foldKey a = foldKey b!"cniVersion" → a = b!"cniVersion") {m : GoMap Json} (hs : GoMap.Sorted m)
    (hspell : ∀ k v, (k, v) ∈ m → foldKey k = foldKey b!"cniVersion" → k = b!"cniVersion") {x y : Bytes}
    (hv : GoMap.get? m b!"cniVersion" = some (.str x)) :
    decAll decStr [] (getField names b!"cniVersion" (GoMap.insert m b!"CNIVersion" (.str y))) =
      decAll decStr [] (getField names b!"cniVersion" m) := by
  have hfm : ∀ k, fieldMatch [b!"cniVersion"] k = some b!"cniVersion" → foldKey k = foldKey b!"cniVersion" := by
    intro k hk
    simp only [fieldMatch, List.mem_singleton] at hk
    split at hk
    · rename_i e; rw [e]
    · have := List.find?_some hk
      simpa using (by simpa using this : foldKey b!"cniVersion" = foldKey k).symm
  have hno : GoMap.get? m b!"CNIVersion" = none := by
    rw [GoMap.get?_none_iff]
    intro hk
    obtain ⟨⟨k, v⟩, hkv, rfl⟩ := List.mem_map.mp hk
    have := hspell _ v hkv (by show foldKey b!"CNIVersion" = foldKey b!"cniVersion"; decide)
    revert this; show ¬ (b!"CNIVersion" = b!"cniVersion"); decide
  have h1 := getField_two (GoMap.sorted_insert hs b!"CNIVersion" (.str y)) (f := b!"cniVersion") (k1 := b!"CNIVersion") (k2 := b!"cniVersion")
    (by decide) (by
      rintro ⟨k, v⟩ hp hk
      rcases GoMap.mem_insert hp with e | hp
      · simp only [Prod.mk.injEq] at e; exact .inl e.1
      · exact .inr (hspell k v hp (hfm k hk))) (by decide) (by decide)
  have h2 := getField_two hs (f := b!"cniVersion") (k1 := b!"CNIVersion") (k2 := b!"cniVersion") (by decide) (by
      rintro ⟨k, v⟩ hp hk
      exact .inr (hspell k v hp (hfm k hk))) (by decide) (by decide)
  rw [GoMap.get?_insert_self, GoMap.get?_insert_ne _ _ (by decide), hv] at h1
  rw [hno, hv] at h2
  rw [← getField_single hf hd, ← getField_single hf hd, h1, h2]
  rfl

/-- The `CNIVersion` that ParsePrevResult adds does not matter if the result says its version. -/
theorem createJson_insert {v y x : Bytes} {m : GoMap Json} (hs : GoMap.Sorted m)
    (hspell : ∀ k v, (k, v) ∈ m → foldKey k = foldKey b!"cniVersion" → k = b!"cniVersion")
    (hv : GoMap.get? m b!"cniVersion" = some (.str x)) :
    createJson v (.obj (GoMap.insert m b!"CNIVersion" (.str y))) = createJson v (.obj m) := by
  have a : decR020 (.obj (GoMap.insert m b!"CNIVersion" (.str y))) = decR020 (.obj m) := by
    simp only [decR020, structMembers, Option.bind_eq_bind, Option.bind_some,
      getField_version_insert (names := r020Fields) (by decide) (by decide) hs hspell hv,
      getField_insert_ne (names := r020Fields) (f := b!"ip4") (k := b!"CNIVersion") (by decide),
      getField_insert_ne (names := r020Fields) (f := b!"ip6") (k := b!"CNIVersion") (by decide),
      getField_insert_ne (names := r020Fields) (f := b!"dns") (k := b!"CNIVersion") (by decide)]
  have b : decR040 (.obj (GoMap.insert m b!"CNIVersion" (.str y))) = decR040 (.obj m) := by
    simp only [decR040, structMembers, Option.bind_eq_bind, Option.bind_some,
      getField_version_insert (names := resFields) (by decide) (by decide) hs hspell hv,
      getField_insert_ne (names := resFields) (f := b!"interfaces") (k := b!"CNIVersion") (by decide),
      getField_insert_ne (names := resFields) (f := b!"ips") (k := b!"CNIVersion") (by decide),
      getField_insert_ne (names := resFields) (f := b!"routes") (k := b!"CNIVersion") (by decide),
      getField_insert_ne (names := resFields) (f := b!"dns") (k := b!"CNIVersion") (by decide)]
  have c : decR100 (.obj (GoMap.insert m b!"CNIVersion" (.str y))) = decR100 (.obj m) := by
    simp only [decR100, structMembers, Option.bind_eq_bind, Option.bind_some,
      getField_version_insert (names := resFields) (by decide) (by decide) hs hspell hv,
      getField_insert_ne (names := resFields) (f := b!"interfaces") (k := b!"CNIVersion") (by decide),
      getField_insert_ne (names := resFields) (f := b!"ips") (k := b!"CNIVersion") (by decide),
      getField_insert_ne (names := resFields) (f := b!"routes") (k := b!"CNIVersion") (by decide),
      getField_insert_ne (names := resFields) (f := b!"dns") (k := b!"CNIVersion") (by decide)]
  unfold createJson
  rw [a, b, c]

/-- Results are read alike for all versions of a format. -/
theorem createJson_format {v w : Bytes} (h : SameFormat v w) (j : Json) : createJson v j = createJson w j := by
  have hv : ∀ {u : Bytes}, (u = [] ∨ u ∈ old020) → u ∈ supported020 := by
    intro u hu
    rcases hu with rfl | hu
    · decide
    · simp only [old020, List.mem_cons, List.not_mem_nil, or_false] at hu
      rcases hu with rfl | rfl <;> decide
  rcases h with ⟨h1, h2⟩ | ⟨h1, h2⟩ | ⟨h1, h2⟩
  · simp only [createJson, hv h1, hv (.inr h2), if_true]
  · simp only [mid040, List.mem_cons, List.not_mem_nil, or_false] at h1 h2
    rcases h1 with rfl | rfl | rfl <;> rcases h2 with rfl | rfl | rfl <;> rfl
  · simp only [new100, List.mem_cons, List.not_mem_nil, or_false] at h1 h2
    rcases h1 with rfl | rfl <;> rcases h2 with rfl | rfl <;> rfl

/-- The keys of a result's document. -/
def resultKeys : List Bytes := [b!"cniVersion", b!"ip4", b!"ip6", b!"dns", b!"interfaces", b!"ips", b!"routes"]

theorem jopt_keys {b : Bool} {k : Bytes} {j : Json} (hk : k ∈ resultKeys) : ∀ m ∈ jopt b k j, m.1 ∈ resultKeys := by
  intro m hm
  unfold jopt at hm
  split at hm
  · rw [List.mem_singleton] at hm; rw [hm]; exact hk
  · cases hm

theorem result_keys {r : Result} {ms : List (Bytes × Json)} (h : r.json = some (.obj ms)) : ∀ m ∈ ms, m.1 ∈ resultKeys := by
  have app : ∀ {a b : List (Bytes × Json)}, (∀ m ∈ a, m.1 ∈ resultKeys) → (∀ m ∈ b, m.1 ∈ resultKeys) → ∀ m ∈ a ++ b, m.1 ∈ resultKeys := by
    intro a b ha hb m hm
    rcases List.mem_append.1 hm with h | h
    · exact ha m h
    · exact hb m h
  have hdns : ∀ d : Json, ∀ m ∈ [(b!"dns", d)], m.1 ∈ resultKeys := by
    intro d m hm; rw [List.mem_singleton] at hm; rw [hm]; show b!"dns" ∈ resultKeys; decide
  unfold Result.json at h
  split at h
  · cases r with
    | v020 r =>
      simp only [Option.some.injEq, Json.obj.injEq] at h
      rw [← h]
      exact app (app (app (jopt_keys (by decide)) (jopt_keys (by decide))) (jopt_keys (by decide))) (hdns _)
    | v040 r =>
      simp only [Option.some.injEq, Json.obj.injEq] at h
      rw [← h]
      exact app (app (app (app (jopt_keys (by decide)) (jopt_keys (by decide))) (jopt_keys (by decide))) (jopt_keys (by decide))) (hdns _)
    | v100 r =>
      simp only at h
      unfold R100.json at h
      split at h
      · rename_i l hl
        simp only [Json.toAny, Option.map_eq_some_iff, Json.obj.injEq] at hl
        obtain ⟨m, hm, rfl⟩ := hl
        have hk : ∀ p ∈ GoMap.ofList m, p.1 ∈ resultKeys := by
          intro p hp
          have h1 : p.1 ∈ r.members.map Prod.fst := by
            rw [← toAnyMembers_keys hm]; exact List.mem_map.2 ⟨p, ofList_mem p hp, rfl⟩
          obtain ⟨q, hq, he⟩ := List.mem_map.1 h1
          rw [← he]
          exact (app (app (app (app (jopt_keys (by decide)) (jopt_keys (by decide))) (jopt_keys (by decide))) (jopt_keys (by decide))) (hdns _)) q hq
        simp only [Option.some.injEq, Json.obj.injEq] at h
        rw [← h]
        intro p hp
        split at hp
        · exact hk p (List.mem_filter.1 hp).1
        · exact hk p hp
      · cases h
  · cases h

/-- What a plugin decodes the document of a well-typed result to. -/
theorem doc_prev {r : Result} {j : Json} (hj : r.json = some j) (hw : WellTyped r) {w : Json} (ha : j.clean.toAny = some w) :
    ∃ m, w = .obj m ∧ GoMap.Sorted m ∧ GoMap.get? m b!"cniVersion" = some (.str r.version) ∧
      ∀ k v, (k, v) ∈ m → foldKey k = foldKey b!"cniVersion" → k = b!"cniVersion" := by
  have hv : r.version ≠ [] ∧ sanitize r.version = r.version := by
    cases r <;> simp only [WellTyped, old020, mid040, new100, List.mem_cons, List.not_mem_nil, or_false] at hw <;> simp only [Result.version]
    · rcases hw with h | h <;> rw [h] <;> decide
    · rcases hw with h | h | h <;> rw [h] <;> decide
    · rcases hw with h | h <;> rw [h] <;> decide
  obtain ⟨ms, rfl, hl, -⟩ := json_names_version hj hv.1
  have hks := result_keys hj
  have hsan : ∀ k ∈ resultKeys, sanitize k = k := by
    intro k hk
    simp only [resultKeys, List.mem_cons, List.not_mem_nil, or_false] at hk
    rcases hk with rfl | rfl | rfl | rfl | rfl | rfl | rfl <;> decide
  simp only [Json.clean, Json.toAny, Option.map_eq_some_iff] at ha
  obtain ⟨m, hm, rfl⟩ := ha
  refine ⟨_, rfl, GoMap.sorted_ofList m, ?_, ?_⟩
  · rw [toAnyMembers_get? hm]
    have : LastMember (Json.cleanMembers ms) b!"cniVersion" (.str r.version) := by
      obtain ⟨a, b, e, hb⟩ := hl
      refine ⟨Json.cleanMembers a, Json.cleanMembers b, ?_, ?_⟩
      · rw [e, cleanMembers_eq, cleanMembers_eq, cleanMembers_eq, List.map_append, List.map_cons]
        simp only [Json.clean, hv.2]
        rfl
      · intro p hp
        rw [cleanMembers_eq] at hp
        obtain ⟨q, hq, rfl⟩ := List.mem_map.1 hp
        simp only
        rw [hsan q.1 (hks q (by rw [e]; simp [hq]))]
        exact hb q hq
    rw [lastMember_iff.1 this]
    rfl
  · intro k v hk hf
    have h1 : k ∈ (Json.cleanMembers ms).map Prod.fst := by
      rw [← toAnyMembers_keys hm]; exact List.mem_map.2 ⟨_, ofList_mem _ hk, rfl⟩
    rw [cleanMembers_eq] at h1
    simp only [List.map_map, List.mem_map, Function.comp] at h1
    obtain ⟨q, hq, rfl⟩ := h1
    have hq := hks q hq
    rw [hsan q.1 hq] at hf ⊢
    revert hf
    have : ∀ k ∈ resultKeys, foldKey k = foldKey b!"cniVersion" → k = b!"cniVersion" := by decide
    exact this q.1 hq

theorem prev_seen {r : Result} {j j' : Json} {c : PluginConf} {ver : Bytes} (hj : r.json = some j) (hw : WellTyped r)
    (he : j'.toAny = j.clean.toAny) (hc : decAnyMap none j' = some c.rawPrev) (hl : Loaded c) (hcv : c.cniVersion = ver) :
    (SameFormat ver r.version → Representable true r →
      parsePrevResult c = ({ c with rawPrev := none, prevResult := some r }, none)) ∧
    (¬ SameFormat ver r.version → ∃ e, parsePrevResult c = ({ c with rawPrev := none, prevResult := none }, some e)) := by
  have hobj : ∃ l, j' = .obj l := by
    cases j' with
    | obj l => exact ⟨l, rfl⟩
    | null =>
      simp only [Json.toAny] at he
      obtain ⟨m, hm, _⟩ := doc_prev hj hw he.symm
      cases hm
    | _ => simp [decAnyMap] at hc
  obtain ⟨l, rfl⟩ := hobj
  simp only [decAnyMap, Option.map_eq_some_iff] at hc
  obtain ⟨m0, hm0, hc⟩ := hc
  have hany : (Json.obj l).toAny = some (.obj (GoMap.ofList m0)) := by simp [Json.toAny, hm0]
  rw [hany] at he
  obtain ⟨m, hm, hs, hv, hsp⟩ := doc_prev hj hw he.symm
  simp only [Json.obj.injEq] at hm
  have hraw : c.rawPrev = some m := by rw [← hc, ← hm]; rfl
  have hne : r.version ≠ [] := by
    cases r <;> simp only [WellTyped, old020, mid040, new100, List.mem_cons, List.not_mem_nil, or_false] at hw <;> simp only [Result.version]
    · rcases hw with h | h <;> rw [h] <;> decide
    · rcases hw with h | h | h <;> rw [h] <;> decide
    · rcases hw with h | h <;> rw [h] <;> decide
  constructor
  · intro hf hrep
    obtain ⟨j1, h1, h2, h3⟩ := Result.json_reads hw hrep (fun _ => rfl)
    rw [hj] at h1
    cases h1
    obtain ⟨j2, h4, h5, h6⟩ := h2.toAny
    rw [Json.clean_of_WF j h2.2.1, h4, hm] at he
    cases he
    have hno : GoMap.get? m b!"CNIVersion" = none := by
      rw [GoMap.get?_none_iff]
      intro hk
      obtain ⟨⟨k, v⟩, hkv, rfl⟩ := List.mem_map.mp hk
      have := hsp _ v hkv (by show foldKey b!"CNIVersion" = foldKey b!"cniVersion"; decide)
      revert this; show ¬ (b!"CNIVersion" = b!"cniVersion"); decide
    obtain ⟨hu, hp⟩ := hl.prev
    have hwf : (Json.obj (GoMap.insert m b!"CNIVersion" (.str c.cniVersion))).WF := by
      simp only [Json.WF]
      rw [WFMembers_iff]
      intro q hq
      rcases GoMap.mem_insert hq with rfl | hq
      · exact ⟨by show isUtf8 b!"CNIVersion" = true; decide, hu⟩
      · exact WFMembers_iff.1 (hp m hraw).2 q hq
    simp only [parsePrevResult, hraw, hno, true_or, if_true, create, Json.parse_print _ hwf, createJson_insert hs hsp hv,
      createJson_format (hcv ▸ hf) , h3 _ h5]
  · intro hf
    obtain ⟨e, he'⟩ := c34_mismatch c hl m hraw hsp r.version hv hne (by rw [hcv]; exact hf)
    rcases c34_ok c m hraw with ⟨r', hr', -⟩ | ⟨e', h⟩
    · rw [hr'] at he'; cases he'
    · exact ⟨e', h⟩

/-! ### C54 -/

/-- C54: a plugin that decodes its standard input gets its configuration as it is in the list, with the name and version of the
list, and with the previous result. -/
theorem c54_stdin {orig name ver stdin : Bytes} {prev : Option Result} {doc : Option Json} {args : GoMap Json} (hd : DocOf prev doc)
    (h : StdinSpec orig name ver doc args stdin) (hp : PlainConf orig) (c0 : PluginConf) (h0 : ReadAs orig c0)
    (hw : ∀ r, prev = some r → WellTyped r) : PluginSees c0 name ver prev stdin := by
  obtain ⟨ms, M, rc, h1, h2, hn, -, ⟨c, hc⟩, hname, hver, hpr, hnp, -, hr1, hr2, hk⟩ := h
  obtain ⟨hpl, hi, hdn, ha⟩ := hp ms h1
  obtain ⟨j0, hj0, h0⟩ := h0
  rw [h1] at hj0
  cases hj0
  have hP : Plainly pluginConfFields M := plainly_kept hpl hn hk (by decide)
  obtain ⟨e1, e2, e3, e4, e5, e6, e7, e8, e9, -, e10, e11⟩ := conf_fields hpl hP hi hdn ha h0 hc
  have says : ∀ k, k ∉ [b!"name", b!"cniVersion", b!"prevResult", b!"runtimeConfig"] → Says ms M k :=
    fun k h => says_of_keeps (hk k h) hpl.once hn
  have f1 := e1 _ hname
  have f2 := e2 _ hver
  have f3 := e3 (says _ (by decide))
  have f4 := e4 (says _ (by decide))
  have f5 := e5 (says _ (by decide))
  have f6 := e6 (says _ (by decide))
  have f9 := e9 (says _ (by decide))
  refine ⟨c, ⟨_, h2, hc⟩, ?_, ?_, ?_⟩
  · cases c; cases c0
    simp only at f1 f2 f3 f4 f5 f6 f9 e10 e11
    subst f1 f2 f3 f4 f5 f6 f9 e10 e11
    rfl
  · intro hno
    subst hno
    simp only [DocOf] at hd
    exact e7 (says_of_keeps (hnp hd) hpl.once hn)
  · intro r hr
    subst hr
    simp only [DocOf] at hd
    obtain ⟨j, hj, rfl⟩ := hd
    obtain ⟨j', hj', he⟩ := hpr j rfl
    exact prev_seen hj (hw r rfl) he (e8 j' hj') ⟨stdin, _, h2, hc⟩ f2

theorem decAttachments_doc (l : List GCAttachment) : decList decAttachment [] (attachmentsDoc l) =
    some (l.map fun g => { containerID := sanitize g.containerID, ifName := sanitize g.ifName }) := by
  simp only [attachmentsDoc, decList]
  induction l with
  | nil => rfl
  | cons g l ih =>
    simp only [List.map_cons, List.mapM_cons, ih]
    rfl

/-- C54 for GC and STATUS: the plugin decodes its configuration, and the valid attachments it is to keep. -/
theorem c54_bare {orig name ver stdin : Bytes} {valid : Option (List GCAttachment)} (h : BareStdin orig name ver valid stdin)
    (hp : PlainConf orig) (c0 : PluginConf) (h0 : ReadAs orig c0) : PluginSeesBare c0 name ver valid stdin := by
  obtain ⟨ms, M, h1, h2, hn, -, ⟨c, hc⟩, hname, hver, hva, hno, hk⟩ := h
  obtain ⟨hpl, hi, hdn, ha⟩ := hp ms h1
  obtain ⟨j0, hj0, h0⟩ := h0
  rw [h1] at hj0
  cases hj0
  have hP : Plainly pluginConfFields M := plainly_kept hpl hn hk (by decide)
  obtain ⟨e1, e2, e3, e4, e5, e6, e7, -, e8, e9, e10, e11⟩ := conf_fields hpl hP hi hdn ha h0 hc
  have says : ∀ k, k ∉ [b!"name", b!"cniVersion", b!"cni.dev/valid-attachments", b!"cni.dev/attachments"] → Says ms M k :=
    fun k h => says_of_keeps (hk k h) hpl.once hn
  have f1 := e1 _ hname
  have f2 := e2 _ hver
  have f3 := e3 (says _ (by decide))
  have f4 := e4 (says _ (by decide))
  have f5 := e5 (says _ (by decide))
  have f6 := e6 (says _ (by decide))
  have f7 := e7 (says _ (by decide))
  have f8 : c.validAttachments = match (generalizing := false) valid with
      | none => c0.validAttachments
      | some l => l.map fun g => { containerID := sanitize g.containerID, ifName := sanitize g.ifName } := by
    cases valid with
    | none => exact e8 (says_of_keeps (hno rfl).1 hpl.once hn)
    | some l =>
      have := e9 _ (hva l rfl).1
      rw [decAttachments_doc] at this
      simpa using this.symm
  refine ⟨_, h2, ?_⟩
  rw [hc]
  congr 1
  cases c; cases c0
  simp only at f1 f2 f3 f4 f5 f6 f7 f8 e10 e11
  subst f1 f2 f3 f4 f5 f6 f7 f8 e10 e11
  rfl

theorem addChain_sees {c : CNIConfig} {name ver : Bytes} {rt : RuntimeConf} {ps : List PluginConfig} {tr : Trace} {rs : List Result}
    (hch : AddChain c name ver rt ps none tr rs) (i : Nat) (e : ExecEv) (hi : tr.execs[i]? = some e) :
    ∃ p, ps[i]? = some p ∧ (PlainConf p.bytes → ReadAs p.bytes p.network →
      (i = 0 → PluginSees p.network name ver none e.stdin) ∧
      ∀ j e' r, i = j + 1 → tr.execs[j]? = some e' → Returned e' r → PluginSees p.network name ver (some r) e.stdin) := by
  obtain ⟨p, hp, hin⟩ := hch.invoked i e hi
  refine ⟨p, hp, fun hpl hra => ⟨?_, ?_⟩⟩
  · intro h0
    obtain ⟨doc, hd, hs⟩ := hin.stdin
    rw [if_pos h0] at hd
    exact c54_stdin hd hs hpl _ hra (by simp)
  · intro j e' r hij hj hr
    subst hij
    obtain ⟨doc, hd, hs⟩ := hin.stdin
    rw [if_neg (by omega)] at hd
    have hlen : j < rs.length := by
      have h1 := (List.getElem?_eq_some_iff.1 hi).1
      have := hch.atMostOneMore
      omega
    obtain ⟨e2, he2, hr2⟩ := hch.results j _ (List.getElem?_eq_getElem hlen)
    rw [hj] at he2
    cases he2
    have hrr : r = rs[j] := by
      obtain ⟨o1, h1, h2⟩ := hr
      obtain ⟨o2, h3, h4⟩ := hr2
      rw [h1] at h3
      cases h3
      rw [h2] at h4
      exact Out.ok.inj h4
    simp only [Nat.add_sub_cancel, List.getElem?_eq_getElem hlen, ← hrr] at hd
    refine c54_stdin hd hs hpl _ hra ?_
    intro r' hr'
    cases hr'
    obtain ⟨o1, h1, h2⟩ := hr
    exact (c33_result _ _ _ h2).1

/-- C54 for the ADD of a list: the first plugin sees no previous result (but what its own configuration says), every other one the
result of the plugin before it, provided that that is in the format of the list's version; parsing it is an error otherwise. -/
theorem c54_add_list (c : CNIConfig) (list : NetConfList) (rt : RuntimeConf) (hrt : rt.OK) (fs fs' : FS) (tr : Trace)
    (o : Out (Option Result)) (h : Runs flt (c.addNetworkList list rt) fs tr fs' o) (i : Nat) (e : ExecEv) (hi : tr.execs[i]? = some e) :
    ∃ p, list.plugins[i]? = some p ∧ (PlainConf p.bytes → ReadAs p.bytes p.network →
      (i = 0 → PluginSees p.network list.name list.cniVersion none e.stdin) ∧
      ∀ j e' r, i = j + 1 → tr.execs[j]? = some e' → Returned e' r →
        PluginSees p.network list.name list.cniVersion (some r) e.stdin) := by
  obtain ⟨rs, hch, -⟩ := addNetworkList_runs hrt h
  exact addChain_sees hch i e hi

/-- C54 for the ADD of a single network. -/
theorem c54_add_network (c : CNIConfig) (net : PluginConfig) (rt : RuntimeConf) (hrt : rt.OK) (fs fs' : FS) (tr : Trace)
    (o : Out Result) (h : Runs flt (c.addNetwork net rt) fs tr fs' o) (e : ExecEv) (he : e ∈ tr.execs)
    (hp : PlainConf net.bytes) (hr : ReadAs net.bytes net.network) :
    PluginSees net.network net.network.name net.network.cniVersion none e.stdin := by
  obtain ⟨rs, hch, -⟩ := addNetwork_runs hrt h
  obtain ⟨i, hi⟩ := List.mem_iff_getElem?.1 he
  obtain ⟨p, hp', h1⟩ := addChain_sees hch i e hi
  have hi0 : i = 0 := by
    have := (List.getElem?_eq_some_iff.1 hp').1
    simp at this
    exact this
  subst hi0
  simp at hp'
  subst hp'
  exact (h1 hp hr).1 rfl

theorem sweep_sees {c : CNIConfig} {verb name ver : Bytes} {rt : RuntimeConf} {ps : List PluginConfig} {prev : Option Result} {tr : Trace}
    (hs : Sweep c verb name ver rt ps prev tr) (hw : ∀ r, prev = some r → WellTyped r) (i : Nat) (e : ExecEv) (hi : tr.execs[i]? = some e) :
    ∃ p, ps[i]? = some p ∧ (PlainConf p.bytes → ReadAs p.bytes p.network → PluginSees p.network name ver prev e.stdin) := by
  obtain ⟨p, hp, hin⟩ := hs.invoked i e hi
  obtain ⟨doc, hd, hst⟩ := hin.stdin
  exact ⟨p, hp, fun hpl hra => c54_stdin hd hst hpl _ hra hw⟩

/-- A result in a version is in the format of that version. -/
theorem sameFormat_of_getAsVersion {r r' : Result} {v : Bytes} (hw : WellTyped r) (h : r.getAsVersion v = .ok r') :
    WellTyped r' ∧ SameFormat (sanitize v) r'.version := by
  have hne : r.version ≠ [] := by
    cases r <;> simp only [WellTyped, old020, mid040, new100, List.mem_cons, List.not_mem_nil, or_false] at hw <;> simp only [Result.version]
    · rcases hw with h | h <;> rw [h] <;> decide
    · rcases hw with h | h | h <;> rw [h] <;> decide
    · rcases hw with h | h <;> rw [h] <;> decide
  rw [c27_getAsVersion, if_pos hne] at h
  obtain ⟨h1, h2⟩ := c27_reports_requested h
  have hw' := h2 hw
  refine ⟨hw', ?_⟩
  have hcase : (r'.version ∈ old020) ∨ (r'.version ∈ mid040) ∨ (r'.version ∈ new100) := by
    cases r' with
    | v020 x => exact .inl hw'
    | v040 x => exact .inr (.inl hw')
    | v100 x => exact .inr (.inr hw')
  have hsan : ∀ w ∈ specVersions, sanitize w = w := by
    intro w hw
    simp only [specVersions, List.mem_cons, List.not_mem_nil, or_false] at hw
    rcases hw with rfl | rfl | rfl | rfl | rfl | rfl | rfl <;> decide
  by_cases hv : v = []
  · subst hv
    rw [h1]
    exact .inl ⟨.inl (by decide), by decide⟩
  · rw [if_neg hv] at h1
    rw [h1] at hcase ⊢
    have hmem : v ∈ specVersions := by
      rcases hcase with h | h | h <;> revert h <;> simp only [old020, mid040, new100, specVersions, List.mem_cons, List.not_mem_nil, or_false]
      · rintro (rfl | rfl) <;> simp
      · rintro (rfl | rfl | rfl) <;> simp
      · rintro (rfl | rfl) <;> simp
    rw [hsan v hmem]
    rcases hcase with h | h | h
    · exact .inl ⟨.inr h, h⟩
    · exact .inr (.inl ⟨h, h⟩)
    · exact .inr (.inr ⟨h, h⟩)

/-- C54 for a later CHECK: every plugin sees the result of the ADD, in the format of its own version. -/
theorem c54_check (c c2 : CNIConfig) (list list2 : NetConfList) (rt rt2 : RuntimeConf) (r : Result) (fs0 fs1 fs2 fs3 : FS) (tr0 tr : Trace)
    (hrt : rt.OK) (hadd : Runs flt (c.addNetworkList list rt) fs0 tr0 fs1 (.ok (some r)))
    (hrep : Representable true r) (hcap : ∀ kv ∈ rt.capArgs, InRange kv.2) (hsame : SameAttachment c list.name rt c2 list2.name rt2)
    (hkeep : fs2 (entryPath c list.name rt) = fs1 (entryPath c list.name rt)) (hrt2 : rt2.OK) (o : Out Unit)
    (h : Runs false (c2.checkNetworkList list2 rt2) fs2 tr fs3 o) (hv : AtLeast list2.cniVersion (0, 4, 0))
    (hd : list2.disableCheck = false) (r' : Result) (hr' : r.getAsVersion list2.cniVersion = .ok r')
    (i : Nat) (e : ExecEv) (hi : tr.execs[i]? = some e) :
    SameFormat (sanitize list2.cniVersion) r'.version ∧ ∃ p, list2.plugins[i]? = some p ∧
      (PlainConf p.bytes → ReadAs p.bytes p.network → PluginSees p.network list2.name list2.cniVersion (some r') e.stdin) := by
  obtain ⟨hw, -⟩ := addNetworkList_stored hrt hadd
  obtain ⟨hw', hf⟩ := sameFormat_of_getAsVersion hw hr'
  exact ⟨hf, sweep_sees (c16_check c c2 list list2 rt rt2 r hrt hadd hrep hcap hsame hkeep hrt2 o h hv hd r' hr').1
    (by intro r1 h1; cases h1; exact hw') i e hi⟩

/-- C54 for a later DEL: every plugin sees the result of the ADD, in the format of its own version. -/
theorem c54_del (c c2 : CNIConfig) (list list2 : NetConfList) (rt rt2 : RuntimeConf) (r : Result) (fs0 fs1 fs2 fs3 : FS) (tr0 tr : Trace)
    (hrt : rt.OK) (hadd : Runs flt (c.addNetworkList list rt) fs0 tr0 fs1 (.ok (some r)))
    (hrep : Representable true r) (hcap : ∀ kv ∈ rt.capArgs, InRange kv.2) (hsame : SameAttachment c list.name rt c2 list2.name rt2)
    (hkeep : fs2 (entryPath c list.name rt) = fs1 (entryPath c list.name rt)) (hrt2 : rt2.OK) (o : Out Unit)
    (h : Runs false (c2.delNetworkList list2 rt2) fs2 tr fs3 o) (hv : AtLeast list2.cniVersion (0, 4, 0))
    (r' : Result) (hr' : r.getAsVersion list2.cniVersion = .ok r') (i : Nat) (e : ExecEv) (hi : tr.execs[i]? = some e) :
    SameFormat (sanitize list2.cniVersion) r'.version ∧ ∃ p, list2.plugins.reverse[i]? = some p ∧
      (PlainConf p.bytes → ReadAs p.bytes p.network → PluginSees p.network list2.name list2.cniVersion (some r') e.stdin) := by
  obtain ⟨hw, -⟩ := addNetworkList_stored hrt hadd
  obtain ⟨hw', hf⟩ := sameFormat_of_getAsVersion hw hr'
  exact ⟨hf, sweep_sees (c16_del c c2 list list2 rt rt2 r hrt hadd hrep hcap hsame hkeep hrt2 o h hv r' hr').1
    (by intro r1 h1; cases h1; exact hw') i e hi⟩

/-- C54 for GC: every plugin asked to clean up sees its configuration and exactly the attachments the caller listed as valid. -/
theorem c54_gc (c : CNIConfig) (list : NetConfList) (valid : Option (List GCAttachment)) (fs fs' : FS) (tr : Trace) (o : Out Unit)
    (h : Runs flt (c.gcNetworkList list valid) fs tr fs' o) (e : ExecEv) (he : e ∈ tr.execs) (a : Args) (ha : e.args = .args a)
    (hc : a.command = b!"GC") :
    ∃ p ∈ list.plugins, PlainConf p.bytes → ReadAs p.bytes p.network → PluginSeesBare p.network list.name list.cniVersion valid e.stdin := by
  rcases c22_execs c list valid fs fs' tr o h e he with ⟨_, _, _, p, _, prev, hinv⟩ | ⟨_, p, hp, hg⟩
  · have := hinv.args
    rw [ha] at this
    simp only [PArgs.args.injEq] at this
    rw [this] at hc
    exact absurd hc (by show b!"DEL" ≠ b!"GC"; decide)
  · exact ⟨p, hp, fun hpl hra => c54_bare hg.stdin hpl _ hra⟩

/-- C54 for STATUS. -/
theorem c54_status (c : CNIConfig) (list : NetConfList) (fs fs' : FS) (tr : Trace) (o : Out Unit)
    (h : Runs flt (c.getStatusNetworkList list) fs tr fs' o) (e : ExecEv) (he : e ∈ tr.execs) :
    ∃ p ∈ list.plugins, PlainConf p.bytes → ReadAs p.bytes p.network → PluginSeesBare p.network list.name list.cniVersion none e.stdin := by
  by_cases hat : AtLeast list.cniVersion (1, 1, 0)
  · obtain ⟨-, p, hp, h2⟩ := queried_execs (c25_status c list hat fs fs' tr o h).2 e he
    exact ⟨p, hp, fun hpl hra => c54_bare h2 hpl _ hra⟩
  · rw [(c25_old c list hat fs fs' tr o h).1] at he
    cases he

/-! ### the hypotheses -/

theorem readAs_plugin {b : Bytes} {p : PluginConfig} (h : pluginConfFromBytes b = .ok p) : ReadAs p.bytes p.network := by
  unfold pluginConfFromBytes at h
  cases hp : Json.parse b with
  | none => simp [hp] at h
  | some j =>
    simp only [hp] at h
    cases hd : decPluginConf j with
    | none => simp [hd] at h
    | some c =>
      simp only [hd] at h
      split at h
      · cases h
      · cases h; exact ⟨j, hp, hd⟩

theorem readAs_plugins {l : List Json} {ps : List PluginConfig} (h : readPlugins l = .ok ps) : ∀ p ∈ ps, ReadAs p.bytes p.network := by
  obtain ⟨h1, h2⟩ := readPlugins_ok h
  intro p hp
  obtain ⟨i, hi, rfl⟩ := List.mem_iff_getElem.1 hp
  exact readAs_plugin (h2 i (by omega) hi)

theorem readAs_finish {base L : NetConfList} {m : GoMap Json} (hb : ∀ p ∈ base.plugins, ReadAs p.bytes p.network)
    (h : finishList base m = .ok L) : ∀ p ∈ L.plugins, ReadAs p.bytes p.network := by
  unfold finishList at h
  split at h
  · split at h
    · cases h
    · cases h; exact hb
  · split at h
    · cases h
    · obtain ⟨ps, hps, h⟩ := Out.bind_eq_ok h
      cases h
      exact readAs_plugins hps
  · cases h

theorem readAs_list {sort : List Bytes → List Bytes} {b : Bytes} {L : NetConfList} (h : networkConfFromBytesWith sort b = .ok L) :
    ∀ p ∈ L.plugins, ReadAs p.bytes p.network := by
  unfold networkConfFromBytesWith at h
  split at h
  · cases h
  split at h
  · cases h
  obtain ⟨_, -, h⟩ := Out.bind_eq_ok h
  obtain ⟨_, -, h⟩ := Out.bind_eq_ok h
  obtain ⟨_, -, h⟩ := Out.bind_eq_ok h
  obtain ⟨_, -, h⟩ := Out.bind_eq_ok h
  obtain ⟨_, -, h⟩ := Out.bind_eq_ok h
  exact readAs_finish (by intro p hp; cases hp) h

theorem readAs_files {fs : ConfFS} {l : List Bytes} {ps : List PluginConfig} (h : readPluginFiles fs l = .ok ps) :
    ∀ p ∈ ps, ReadAs p.bytes p.network := by
  induction l generalizing ps with
  | nil => cases h; intro p hp; cases hp
  | cons f l ih =>
    simp only [readPluginFiles] at h
    split at h
    · cases h
    · obtain ⟨p, hp, h⟩ := Out.bind_eq_ok h
      obtain ⟨ps', hps, h⟩ := Out.bind_eq_ok h
      cases h
      intro q hq
      rcases List.mem_cons.1 hq with rfl | hq
      · exact readAs_plugin hp
      · exact ih hps q hq

/-- C54: the functions that load configurations give plugins whose `Network` is what their bytes decode to, so for them that hypothesis
of the theorems above holds. -/
theorem c54_loaded_file (fs : ConfFS) (file : Bytes) (L : NetConfList) (h : networkConfFromFile fs file = .ok L) :
    ∀ p ∈ L.plugins, ReadAs p.bytes p.network := by
  unfold networkConfFromFile at h
  split at h
  · cases h
  obtain ⟨c1, h1, h⟩ := Out.bind_eq_ok h
  obtain ⟨c2, h2, h⟩ := Out.bind_eq_ok h
  split at h
  · cases h
  cases h
  have hr := readAs_list h1
  unfold addPluginFiles at h2
  split at h2
  · cases h2; exact hr
  · obtain ⟨ps, hps, h2⟩ := Out.bind_eq_ok h2
    cases h2
    unfold pluginConfsFromFiles at hps
    obtain ⟨files, -, hps⟩ := Out.bind_eq_ok hps
    intro p hp
    rcases List.mem_append.1 hp with hp | hp
    · exact hr p hp
    · exact readAs_files hps p hp

/-- C54: the same for looking up a network by name. -/
theorem c54_loaded (fs : ConfFS) (dir name : Bytes) (L : NetConfList) (h : loadNetworkConf fs dir name = .ok L) :
    ∀ p ∈ L.plugins, ReadAs p.bytes p.network := by
  have loop : ∀ (l : List Bytes) (c : NetConfList), loadListLoop fs name l = .ok (some c) → ∀ p ∈ c.plugins, ReadAs p.bytes p.network := by
    intro l
    induction l with
    | nil => intro c h; cases h
    | cons f l ih =>
      intro c h
      simp only [loadListLoop] at h
      obtain ⟨c', h1, h⟩ := Out.bind_eq_ok h
      split at h
      · cases h; exact c54_loaded_file fs f _ h1
      · exact ih c h
  unfold loadNetworkConf at h
  obtain ⟨files, -, h⟩ := Out.bind_eq_ok h
  obtain ⟨c, h1, h⟩ := Out.bind_eq_ok h
  cases c with
  | some c => cases h; exact loop _ _ h1
  | none =>
    simp only at h
    obtain ⟨single, -, h⟩ := Out.bind_eq_ok h
    split at h
    · split at h <;> cases h
    · obtain ⟨pc, -, h⟩ := Out.bind_eq_ok h
      unfold confListFromConf at h
      split at h
      · cases h
      split at h
      · cases h
      exact readAs_list h

namespace Example

/-- A plugin configuration with everything in it. -/
def full : PluginConfig :=
  { network := { type := b!"a", capabilities := [(b!"p", true)], ipamType := b!"i", dns := { domain := b!"d", search := [b!"s"] } }
    bytes := b!"{\"type\":\"a\",\"capabilities\":{\"p\":true},\"ipam\":{\"type\":\"i\",\"x\":1},\"dns\":{\"domain\":\"d\",\"search\":[\"s\"]},\"mtu\":1500}" }

theorem full_parse : Json.parse full.bytes = some (.obj [(b!"type", .str b!"a"), (b!"capabilities", .obj [(b!"p", .bool true)]),
    (b!"ipam", .obj [(b!"type", .str b!"i"), (b!"x", .num b!"1")]),
    (b!"dns", .obj [(b!"domain", .str b!"d"), (b!"search", .arr [.str b!"s"])]), (b!"mtu", .num b!"1500")]) := by decide +kernel

/-- It meets the hypotheses. -/
theorem full_plain : PlainConf full.bytes ∧ ReadAs full.bytes full.network := by
  refine ⟨?_, _, full_parse, by decide +kernel⟩
  intro ms h
  rw [full_parse] at h
  simp only [Option.some.injEq, Json.obj.injEq] at h
  subst h
  refine ⟨⟨by decide, by decide⟩, ?_, ?_, ?_⟩
  · intro is h
    simp at h
    subst h
    exact ⟨by decide, by decide⟩
  · intro is h
    simp at h
    subst h
    exact ⟨by decide, by decide⟩
  · intro l h
    simp at h

/-- The plugins of the examples meet them too. -/
theorem plug_plain : ∀ p ∈ list.plugins, PlainConf p.bytes ∧ ReadAs p.bytes p.network := by
  have hA : Json.parse plugA.bytes = some (.obj [(b!"type", .str b!"a"), (b!"x", .num b!"1")]) := by decide +kernel
  have hB : Json.parse plugB.bytes = some (.obj [(b!"type", .str b!"b")]) := by decide +kernel
  intro p hp
  simp only [list, List.mem_cons, List.not_mem_nil, or_false] at hp
  rcases hp with rfl | rfl
  · refine ⟨?_, _, hA, by decide +kernel⟩
    intro ms h
    rw [hA] at h
    simp only [Option.some.injEq, Json.obj.injEq] at h
    subst h
    exact ⟨⟨by decide, by decide⟩, by simp, by simp, by simp⟩
  · refine ⟨?_, _, hB, by decide +kernel⟩
    intro ms h
    rw [hB] at h
    simp only [Option.some.injEq, Json.obj.injEq] at h
    subst h
    exact ⟨⟨by decide, by decide⟩, by simp, by simp, by simp⟩

/-- What the plugin's decoded previous result is, or that parsing it fails. -/
def prevOf (b : Bytes) : Option (Option Result × Bool) :=
  (Json.parse b).bind fun j => (decPluginConf j).map fun c => ((parsePrevResult c).1.prevResult, (parsePrevResult c).2.isSome)

/-- The second plugin sees the result of the first. -/
example : ∃ tr fs' o, Runs false (cfg.addNetworkList list rt) noFiles tr fs' o ∧
    tr.execs.map (fun e => (prevOf e.stdin).map fun p => (p.1.map Result.version, p.2)) = [some (none, false), some (some b!"1.0.0", false)] :=
  Prog.interp_exists (find := find) (exec := good)
    (fun tr _ _ => tr.execs.map (fun e => (prevOf e.stdin).map fun p => (p.1.map Result.version, p.2))) (by decide +kernel)

/-- A first plugin that answers in the format of an older version than that of the list. -/
def older (p i : Bytes) (a : PArgs) : Except GoErr Bytes :=
  if p = b!"/bin/a" then .ok b!"{\"cniVersion\":\"0.4.0\"}" else good p i a

/-- A finding: the runtime accepts the older result, and gives it to the second plugin as it is. That plugin cannot parse it, although it
supports all versions. -/
theorem _root_.Verif.c54_other_format : ∃ tr fs' o, Runs false (cfg.addNetworkList list rt) noFiles tr fs' o ∧
    (tr.execs.map (fun e => prevOf e.stdin), o.toOption.isSome) = ([some (none, false), some (none, true)], true) :=
  Prog.interp_exists (find := find) (exec := older) (fun tr _ o => (tr.execs.map (fun e => prevOf e.stdin), o.toOption.isSome))
    (by decide +kernel)

/-- What a plugin asked to collect garbage decodes as the valid attachments. -/
def validOf (b : Bytes) : Option (List GCAttachment) := (Json.parse b).bind fun j => (decPluginConf j).map PluginConf.validAttachments

example : ∃ tr fs' o, Runs false (cfg.gcNetworkList list11 (some [⟨b!"c1", b!"eth0"⟩, ⟨b!"c2", b!"eth1"⟩])) oneFile tr fs' o ∧
    tr.execs.map (fun e => validOf e.stdin) =
      [some [⟨b!"c1", b!"eth0"⟩, ⟨b!"c2", b!"eth1"⟩], some [⟨b!"c1", b!"eth0"⟩, ⟨b!"c2", b!"eth1"⟩]] :=
  Prog.afterDir_exists (find := find) (exec := good) (Example.lists _)
    (fun tr _ _ => tr.execs.map (fun e => validOf e.stdin)) (by decide +kernel) (fun _ _ _ _ => rfl)

end Example

end Verif
