/- Printing a plugin configuration (C59). -/
import Verif.Types.PluginConfJson
import Verif.Spec.ConfJson
import Verif.Types.ResultRoundTrip
import Verif.Props.PluginView

namespace Verif

open Spec

set_option linter.unusedSimpArgs false

theorem normal_good {j : Json} (h : j.Normal) : j.Good true := by
  have := Json.toAny_uniq j j h.1
  exact ⟨this.1, h.2, fun _ => this.2⟩

theorem good_bools {m : GoMap Bool} (h : GoMap.Sorted m) (hu : ∀ p ∈ m, isUtf8 p.1 = true) :
    (Json.obj (m.map fun p => (p.1, .bool p.2))).Good true := by
  refine good_obj ?_ ?_
  · have := GoMap.sorted_nodup h
    simpa [List.map_map, Function.comp_def] using this
  · intro x hx
    obtain ⟨p, hp, rfl⟩ := List.mem_map.1 hx
    exact ⟨hu p hp, trivial, trivial, fun _ => trivial⟩

theorem good_attachment {a : GCAttachment} (h : isUtf8 a.containerID = true ∧ isUtf8 a.ifName = true) : (jAttachment a).Good true := by
  unfold jAttachment
  refine good_obj (by simp) ?_
  intro m hm
  simp at hm
  rcases hm with rfl | rfl
  · exact ⟨by simp only; decide, good_str h.1⟩
  · exact ⟨by simp only; decide, good_str h.2⟩

theorem good_conf {c : PluginConf} (h : ConfOk c) : (Json.obj c.members).Good true := by
  unfold PluginConf.members
  refine good_obj (by nodup_tac) ?_
  goodm_tac
  · exact good_str h.cniVersion
  · exact good_str h.name
  · exact good_str h.type
  · exact good_bools h.capabilities.1 h.capabilities.2
  · refine good_obj (by nodup_tac) ?_
    goodm_tac
    exact good_str h.ipam
  · exact good_dns h.dns
  · cases hp : c.rawPrev with
    | none => exact good_obj (by simp) (by intro m hm; cases hm)
    | some m =>
      refine good_obj (GoMap.sorted_nodup (h.prev m hp).1) ?_
      intro p hm
      exact ⟨((h.prev m hp).2 p hm).1, normal_good ((h.prev m hp).2 p hm).2⟩
  · unfold jAttachments
    exact good_list fun a ha => good_attachment (h.attachments a ha)

theorem conf_keys (c : PluginConf) : ∀ k ∈ c.members.map Prod.fst, k ∈ pluginConfFields := by
  unfold PluginConf.members; keys_tac
theorem conf_nodup (c : PluginConf) : (c.members.map Prod.fst).Nodup := by
  unfold PluginConf.members; nodup_tac

/-- What the members printed are. -/
theorem conf_members {c : PluginConf} (h : ConfOk c) : ∃ M, c.json = some (.obj M) ∧ (Json.obj M).Good true ∧
    ∀ k, GoMap.get? M k = if c.dns.isEmpty = true ∧ k = b!"dns" then none else (GoMap.get? c.members k).bind Json.toAny := by
  obtain ⟨j, hj, hal, hg⟩ := (good_conf h).toAny
  simp only [Json.toAny, Option.map_eq_some_iff] at hj
  obtain ⟨m, hm, rfl⟩ := hj
  have hget : ∀ k, GoMap.get? (GoMap.ofList m) k = (GoMap.get? c.members k).bind Json.toAny := by
    intro k
    rw [toAnyMembers_get? hm, GoMap.get?_reverse_of_nodup (conf_nodup c)]
  have hj : (Json.obj c.members).toAny = some (.obj (GoMap.ofList m)) := by simp only [Json.toAny, hm, Option.map_some]
  by_cases hd : c.dns.isEmpty = true
  · refine ⟨GoMap.erase (GoMap.ofList m) b!"dns", ?_, hg.erase _, fun k => ?_⟩
    · simp only [PluginConf.json, hj, hd, if_true]
    · rw [GoMap.get?_erase, hget]
      by_cases hk : k = b!"dns"
      · simp [hk, hd]
      · have : ¬ b!"dns" = k := fun e => hk e.symm
        simp only [hk, this, and_false, if_false]
  · refine ⟨GoMap.ofList m, ?_, hg, fun k => ?_⟩
    · simp only [PluginConf.json, hj, hd]
      rfl
    · rw [hget, if_neg (fun hc => hd hc.1)]

theorem decBoolMap_bools {m : GoMap Bool} (h : GoMap.Sorted m) : decBoolMap [] (.obj (m.map fun p => (p.1, .bool p.2))) = some m := by
  have : ∀ l : List (Bytes × Bool), (l.map fun p => (p.1, Json.bool p.2)).mapM (fun m => (decBool false m.2).map fun b => (m.1, b)) = some l := by
    intro l
    induction l with
    | nil => rfl
    | cons p l ih => simp only [List.map_cons, List.mapM_cons, ih]; rfl
  simp only [decBoolMap, this, Option.map_some]
  exact congrArg some (GoMap.ofList_of_sorted h)

theorem decAttachment_alike {a : GCAttachment} {j : Json} (h : (jAttachment a).Alike j) : decAttachment j = some a := by
  obtain ⟨ms, rfl, hs, ha⟩ := h.structMembers rfl
  have hk : ∀ k ∈ ([(b!"containerID", .str a.containerID), (b!"ifname", .str a.ifName)] : List (Bytes × Json)).map Prod.fst,
      k ∈ [b!"containerID", b!"ifname"] := by simp
  have e1 : decAll decStr [] (getField [b!"containerID", b!"ifname"] b!"containerID" ms) = some a.containerID :=
    ha.dec hk _ (by simp [GoMap.get?]) (by
      intro v v' hget hal
      simp [GoMap.get?] at hget
      subst hget
      rw [hal.str_inv]; rfl)
  have e2 : decAll decStr [] (getField [b!"containerID", b!"ifname"] b!"ifname" ms) = some a.ifName :=
    ha.dec hk _ (by simp [GoMap.get?]) (by
      intro v v' hget hal
      simp [GoMap.get?] at hget
      subst hget
      rw [hal.str_inv]; rfl)
  simp only [decAttachment, hs, e1, e2, Option.bind_eq_bind, Option.bind_some]

theorem map_any_self {m : GoMap Json} (h : GoMap.Sorted m) (hn : ∀ p ∈ m, isUtf8 p.1 = true ∧ p.2.Normal) :
    (Json.obj m).toAny = some (.obj m) ∧ decAnyMap none (.obj m) = some (some m) := by
  have : Json.toAnyMembers m = some m := toAnyMembers_self fun p hp => (hn p hp).2.1
  refine ⟨?_, ?_⟩
  · simp only [Json.toAny, this, Option.map_some]
    exact congrArg (fun x => some (Json.obj x)) (GoMap.ofList_of_sorted h)
  · simp only [decAnyMap, this, Option.map_some, Option.getD_none]
    exact congrArg (fun x => some (some x)) (GoMap.ofList_of_sorted h)

theorem bools_any {m : GoMap Bool} (h : GoMap.Sorted m) :
    (Json.obj (m.map fun p => (p.1, .bool p.2))).toAny = some (.obj (m.map fun p => (p.1, .bool p.2))) := by
  have h1 : Json.toAnyMembers (m.map fun p => (p.1, Json.bool p.2)) = some (m.map fun p => (p.1, Json.bool p.2)) :=
    toAnyMembers_self fun p hp => by
      obtain ⟨q, hq, rfl⟩ := List.mem_map.1 hp
      rfl
  simp only [Json.toAny, h1, Option.map_some]
  have hs : ∀ m : GoMap Bool, GoMap.Sorted m → GoMap.Sorted (m.map fun p => (p.1, Json.bool p.2) : GoMap Json) := by
    intro m
    induction m with
    | nil => intro _; trivial
    | cons p m ih =>
      rintro ⟨h1, h2⟩
      refine ⟨?_, ih h2⟩
      intro q hq
      obtain ⟨r, hr, rfl⟩ := List.mem_map.1 hq
      exact h1 r hr
  have := hs m h
  exact congrArg (fun x => some (Json.obj x)) (GoMap.ofList_of_sorted this)

theorem decPluginConf_members {c : PluginConf} (h : ConfOk c) {M : List (Bytes × Json)} (hg : (Json.obj M).Good true)
    (hM : ∀ k, GoMap.get? M k = if c.dns.isEmpty = true ∧ k = b!"dns" then none else (GoMap.get? c.members k).bind Json.toAny) :
    decPluginConf (.obj M) = some (reread c) := by
  have hk : ∀ k ∈ M.map Prod.fst, k ∈ pluginConfFields := by
    intro k hk
    apply conf_keys c
    refine Classical.byContradiction fun hc => ?_
    have := hM k
    rw [GoMap.get?_none_iff.2 hc] at this
    simp at this
    exact GoMap.get?_none_iff.1 this hk
  have hf : ∀ f, getField pluginConfFields f M = (GoMap.get? M f).toList := fun f => getField_exact hk hg.1.1 f
  have g1 : GoMap.get? c.members b!"cniVersion" = if c.cniVersion ≠ [] then some (.str c.cniVersion) else none := by
    by_cases hc : c.cniVersion ≠ [] <;> simp [PluginConf.members, GoMap.get?_append, get?_jopt, get?_cons, get?_nil', hc]
  have g2 : GoMap.get? c.members b!"name" = if c.name ≠ [] then some (.str c.name) else none := by
    by_cases hc : c.name ≠ [] <;> simp [PluginConf.members, GoMap.get?_append, get?_jopt, get?_cons, get?_nil', hc]
  have g3 : GoMap.get? c.members b!"type" = if c.type ≠ [] then some (.str c.type) else none := by
    by_cases hc : c.type ≠ [] <;> simp [PluginConf.members, GoMap.get?_append, get?_jopt, get?_cons, get?_nil', hc]
  have g4 : GoMap.get? c.members b!"capabilities" = if c.capabilities ≠ [] then some (.obj (c.capabilities.map fun p => (p.1, .bool p.2))) else none := by
    by_cases hc : c.capabilities ≠ [] <;> simp [PluginConf.members, GoMap.get?_append, get?_jopt, get?_cons, get?_nil', hc]
  have g7 : GoMap.get? c.members b!"prevResult" = if c.rawPrev.getD [] ≠ [] then some (.obj (c.rawPrev.getD [])) else none := by
    by_cases hc : c.rawPrev.getD [] ≠ [] <;> simp [PluginConf.members, GoMap.get?_append, get?_jopt, get?_cons, get?_nil', hc]
  have g8 : GoMap.get? c.members b!"cni.dev/valid-attachments" = if c.validAttachments ≠ [] then some (jAttachments c.validAttachments) else none := by
    by_cases hc : c.validAttachments ≠ [] <;> simp [PluginConf.members, GoMap.get?_append, get?_jopt, get?_cons, get?_nil', hc]
  have g5 : GoMap.get? c.members b!"ipam" = some (.obj (jopt (c.ipamType ≠ []) b!"type" (.str c.ipamType))) := by
    simp [PluginConf.members, GoMap.get?_append, get?_jopt, get?_cons, get?_nil']
  have g6 : GoMap.get? c.members b!"dns" = some (jDns c.dns) := by
    simp [PluginConf.members, GoMap.get?_append, get?_jopt, get?_cons, get?_nil']
  have e1 : decAll decStr [] (getField pluginConfFields b!"cniVersion" M) = some c.cniVersion := by
    rw [hf, hM, g1]
    by_cases h0 : c.cniVersion = [] <;> simp [h0, Json.toAny, decAll_nil, decAll_one, decStr]
  have e2 : decAll decStr [] (getField pluginConfFields b!"name" M) = some c.name := by
    rw [hf, hM, g2]
    by_cases h0 : c.name = [] <;> simp [h0, Json.toAny, decAll_nil, decAll_one, decStr]
  have e3 : decAll decStr [] (getField pluginConfFields b!"type" M) = some c.type := by
    rw [hf, hM, g3]
    by_cases h0 : c.type = [] <;> simp [h0, Json.toAny, decAll_nil, decAll_one, decStr]
  have e4 : decAll decBoolMap [] (getField pluginConfFields b!"capabilities" M) = some c.capabilities := by
    rw [hf, hM, g4]
    by_cases h0 : c.capabilities = []
    · simp [h0, decAll_nil]
    · simp [h0, decAll_one, bools_any h.capabilities.1, decBoolMap_bools h.capabilities.1]
  have e5 : decAll decIpam [] (getField pluginConfFields b!"ipam" M) = some c.ipamType := by
    rw [hf, hM, g5]
    by_cases h0 : c.ipamType = []
    · simp [h0, decAll_one, jopt, Json.toAny, Json.toAnyMembers, GoMap.ofList, GoMap.insertAll, decIpam, structMembers, getField_nil, decAll_nil]
    · simp [h0, decAll_one, jopt, Json.toAny, Json.toAnyMembers, GoMap.ofList, GoMap.insertAll, GoMap.insert, decIpam, structMembers,
        getField_cons, getField_nil, show fieldMatch [b!"type"] b!"type" = some b!"type" by decide, decStr]
  have e6 : decAll decDns {} (getField pluginConfFields b!"dns" M) = some c.dns := by
    rw [hf, hM, g6]
    by_cases hd : c.dns.isEmpty = true
    · rw [if_pos ⟨hd, rfl⟩]
      exact congrArg some (Dns.eq_of_isEmpty hd).symm
    · obtain ⟨w, hw, hal, -⟩ := (good_dns (e := true) h.dns).toAny
      simp [hd, hw, decAll_one, decDns_alike hal]
  have e7 : decAll decAnyMap none (getField pluginConfFields b!"prevResult" M) = some (if c.rawPrev = some [] then none else c.rawPrev) := by
    rw [hf, hM, g7]
    cases hp : c.rawPrev with
    | none => simp [decAll_nil]
    | some m =>
      obtain ⟨hs, hn⟩ := h.prev m hp
      by_cases h0 : m = []
      · simp [h0, decAll_nil]
      · simp [h0, decAll_one, map_any_self hs hn]
  have e8 : decAll (decList decAttachment) [] (getField pluginConfFields b!"cni.dev/valid-attachments" M) = some c.validAttachments := by
    rw [hf, hM, g8]
    by_cases h0 : c.validAttachments = []
    · simp [h0, decAll_nil]
    · have hga : (jAttachments c.validAttachments).Good true := by
        unfold jAttachments
        exact good_list fun a ha => good_attachment (h.attachments a ha)
      obtain ⟨w, hw, hal, -⟩ := hga.toAny
      simp [h0, hw, decAll_one, alike_list hal fun a _ v hv => decAttachment_alike hv]
  simp only [decPluginConf, structMembers, e1, e2, e3, e4, e5, e6, e7, e8, Option.bind_eq_bind, Option.bind_some]
  rfl

/-- C59: a configuration that JSON can carry is printed and reads back as itself (without the parsed previous result; an empty raw one is
none). -/
theorem c59_round_trip (c : PluginConf) (h : ConfOk c) : ∃ b, c.marshal = .ok b ∧ ReadAs b (reread c) := by
  obtain ⟨M, hj, hg, hM⟩ := conf_members h
  refine ⟨(Json.obj M).print, by simp only [PluginConf.marshal, hj], .obj M, Json.parse_print _ hg.2.1, decPluginConf_members h hg hM⟩

/-- C59: the keys printed: `ipam` always, anything else if it is not empty, and each once. -/
theorem c59_keys (c : PluginConf) (h : ConfOk c) (b : Bytes) (hb : c.marshal = .ok b) :
    ∃ ms, Json.parse b = some (.obj ms) ∧ (ms.map Prod.fst).Nodup ∧ ∀ k, k ∈ ms.map Prod.fst ↔ PrintedKey c k := by
  obtain ⟨M, hj, hg, hM⟩ := conf_members h
  simp only [PluginConf.marshal, hj, Out.ok.injEq] at hb
  subst hb
  refine ⟨M, Json.parse_print _ hg.2.1, hg.1.1, fun k => ?_⟩
  have hany : ∀ v, GoMap.get? c.members k = some v → ∃ w, v.toAny = some w := by
    intro v hv
    obtain ⟨hu, hw, he⟩ := good_conf h
    have hmem := GoMap.get?_some_mem hv
    have he := he rfl
    simp only [Json.Exact] at he
    obtain ⟨w, hw, -⟩ := Json.toAny_alike v (UniqMembers_iff.1 hu.2 _ hmem) (ExactMembers_iff.1 he _ hmem)
    exact ⟨w, hw⟩
  have h1 : k ∈ M.map Prod.fst ↔ ¬ (c.dns.isEmpty = true ∧ k = b!"dns") ∧ k ∈ c.members.map Prod.fst := by
    have a : k ∈ M.map Prod.fst ↔ GoMap.get? M k ≠ none := by rw [Ne, GoMap.get?_none_iff, Classical.not_not]
    have b : k ∈ c.members.map Prod.fst ↔ GoMap.get? c.members k ≠ none := by rw [Ne, GoMap.get?_none_iff, Classical.not_not]
    rw [a, b, hM]
    by_cases hd : c.dns.isEmpty = true ∧ k = b!"dns"
    · simp [hd]
    · rw [if_neg hd]
      cases hg : GoMap.get? c.members k with
      | none => simp
      | some v =>
        obtain ⟨w, hw⟩ := hany v hg
        simp [hw, hd]
  have hdns : c.dns.isEmpty = true ↔ c.dns = {} := ⟨Dns.eq_of_isEmpty, fun e => by rw [e]; rfl⟩
  have hprev : c.rawPrev.getD [] ≠ [] ↔ c.rawPrev ≠ none ∧ c.rawPrev ≠ some [] := by
    cases c.rawPrev <;> simp
  rw [h1, hdns]
  unfold PrintedKey
  rw [← hprev]
  have hmem : k ∈ c.members.map Prod.fst ↔ (k = b!"cniVersion" ∧ c.cniVersion ≠ []) ∨ (k = b!"name" ∧ c.name ≠ []) ∨
      (k = b!"type" ∧ c.type ≠ []) ∨ (k = b!"capabilities" ∧ c.capabilities ≠ []) ∨ k = b!"ipam" ∨ k = b!"dns" ∨
      (k = b!"prevResult" ∧ c.rawPrev.getD [] ≠ []) ∨ (k = b!"cni.dev/valid-attachments" ∧ c.validAttachments ≠ []) := by
    simp only [PluginConf.members, List.map_append, List.mem_append, mem_keys_jopt, List.map_cons, List.map_nil, List.mem_singleton,
      decide_eq_true_eq, or_assoc, and_comm]
  rw [hmem]
  by_cases hk : k = b!"dns"
  · subst hk
    simp
  · simp only [hk, and_false, not_false_eq_true, true_and, false_or, false_and]

/-! ### configurations that were decoded -/

theorem decStr_text {c r : Bytes} {v : Json} (hc : isUtf8 c = true) (hv : v.WF) (h : decStr c v = some r) : isUtf8 r = true := by
  cases v <;> simp [decStr] at h <;> subst h
  · exact hc
  · simpa [Json.WF] using hv

theorem decStrElems_utf8 {l : List Json} (hw : ∀ j ∈ l, j.WF) {r : List Bytes} (h : decStrElems l = some r) : TextsOk r := by
  induction l generalizing r with
  | nil => cases h; intro s hs; cases hs
  | cons j l ih =>
    have hj := hw j (by simp)
    cases j <;> simp [decStrElems] at h
    all_goals
      obtain ⟨r', h', rfl⟩ := h
      intro s hs
      rcases List.mem_cons.1 hs with rfl | hs
      · first | rfl | exact hj
      · exact ih (fun j hj => hw j (by simp [hj])) h' s hs

theorem decStrList_utf8 {c r : List Bytes} {v : Json} (hv : v.WF) (h : decStrList c v = some r) : TextsOk r := by
  cases v <;> simp [decStrList] at h
  · subst h; intro s hs; cases hs
  · simp only [Json.WF] at hv
    exact decStrElems_utf8 (WFList_iff.1 hv) h

theorem field_wf {ms : List (Bytes × Json)} (hw : Json.WFMembers ms) {names : List Bytes} {f : Bytes} : ∀ v ∈ getField names f ms, v.WF := by
  intro v hv
  obtain ⟨k, hk, _⟩ := mem_getField.1 hv
  exact (WFMembers_iff.1 hw _ hk).2

theorem members_wf {j : Json} {ms : List (Bytes × Json)} (hw : j.WF) (h : structMembers j = some ms) : Json.WFMembers ms := by
  cases j <;> simp [structMembers] at h
  · subst h; trivial
  · subst h; simpa [Json.WF] using hw

theorem decIpam_utf8 {c r : Bytes} {v : Json} (hc : isUtf8 c = true) (hv : v.WF) (h : decIpam c v = some r) : isUtf8 r = true := by
  simp only [decIpam, Option.bind_eq_bind, Option.bind_eq_some_iff] at h
  obtain ⟨ms, hm, h⟩ := h
  exact decAll_inv (P := fun s => isUtf8 s = true) (Q := Json.WF) (fun c v r hc hv h => decStr_text hc hv h) hc (field_wf (members_wf hv hm)) h

theorem decAttachment_utf8 {a : GCAttachment} {v : Json} (hv : v.WF) (h : decAttachment v = some a) :
    isUtf8 a.containerID = true ∧ isUtf8 a.ifName = true := by
  simp only [decAttachment, Option.bind_eq_bind, Option.bind_eq_some_iff] at h
  obtain ⟨ms, hm, c, hc, i, hi, h⟩ := h
  cases h
  have key := fun {c r : Bytes} {f : Bytes} (hc : isUtf8 c = true) (h : decAll decStr c (getField [b!"containerID", b!"ifname"] f ms) = some r) =>
    decAll_inv (P := fun s => isUtf8 s = true) (Q := Json.WF) (fun c v r hc hv h => decStr_text hc hv h) hc (field_wf (members_wf hv hm)) h
  exact ⟨key rfl hc, key rfl hi⟩

theorem decAttachments_utf8 {c r : List GCAttachment} {v : Json} (hv : v.WF) (h : decList decAttachment c v = some r) :
    ∀ a ∈ r, isUtf8 a.containerID = true ∧ isUtf8 a.ifName = true := by
  cases v <;> simp [decList] at h
  · subst h; intro a ha; cases ha
  · rename_i l
    simp only [Json.WF] at hv
    replace hv := WFList_iff.1 hv
    clear c
    induction l generalizing r with
    | nil => cases h; intro a ha; cases ha
    | cons j l ih =>
      simp only [List.mapM_cons, Option.bind_eq_bind, Option.bind_eq_some_iff] at h
      obtain ⟨a, ha, r', hr, h⟩ := h
      cases h
      intro b hb
      rcases List.mem_cons.1 hb with rfl | hb
      · exact decAttachment_utf8 (hv j (by simp)) ha
      · exact ih hr (fun j hj => hv j (by simp [hj])) b hb

theorem decDns_utf8 {c r : Dns} {v : Json} (hc : DnsOk c) (hv : v.WF) (h : decDns c v = some r) : DnsOk r := by
  simp only [decDns, Option.bind_eq_bind, Option.bind_eq_some_iff] at h
  obtain ⟨ms, hm, n, hn, d, hd, s, hs, o, ho, h⟩ := h
  cases h
  have hw := members_wf hv hm
  have kl := fun {i r : List Bytes} {f : Bytes} (hi : TextsOk i) (h : decAll decStrList i (getField dnsFields f ms) = some r) =>
    decAll_inv (P := TextsOk) (Q := Json.WF) (fun c v r hc hv h => decStrList_utf8 hv h) hi (field_wf hw) h
  exact ⟨kl hc.1 hn, decAll_inv (P := fun s => isUtf8 s = true) (Q := Json.WF) (fun c v r hc hv h => decStr_text hc hv h) hc.2.1 (field_wf hw) hd,
    kl hc.2.2.1 hs, kl hc.2.2.2 ho⟩

theorem decAnyMap_normal {c r : Option (GoMap Json)} {v : Json} (hc : ∀ m, c = some m → GoMap.Sorted m ∧ ∀ p ∈ m, isUtf8 p.1 = true ∧ p.2.Normal)
    (hv : v.WF) (h : decAnyMap c v = some r) : ∀ m, r = some m → GoMap.Sorted m ∧ ∀ p ∈ m, isUtf8 p.1 = true ∧ p.2.Normal := by
  cases v with
  | null => simp [decAnyMap] at h; subst h; intro m hm; cases hm
  | obj ms =>
    simp only [decAnyMap, Option.map_eq_some_iff] at h
    obtain ⟨l, hl, rfl⟩ := h
    rintro m hm
    cases hm
    have hcs : GoMap.Sorted (c.getD []) ∧ ∀ p ∈ c.getD [], isUtf8 p.1 = true ∧ p.2.Normal := by
      cases c with
      | none => exact ⟨trivial, fun p hp => by cases hp⟩
      | some m => exact hc m rfl
    refine ⟨GoMap.sorted_insertAll hcs.1 l, ?_⟩
    rintro ⟨k, w⟩ hp
    rcases insertAll_keys hp with hp | hp
    · exact hcs.2 _ hp
    · simp only [Json.WF] at hv
      have hw := Json.toAnyMembers_WF ms l hv hl
      have := WFMembers_iff.1 hw _ hp
      exact ⟨this.1, Json.toAnyMembers_idem ms l hl _ hp, this.2⟩
  | _ => simp [decAnyMap] at h

/-- What was decoded from a document can be printed. -/
theorem readAs_ok {b : Bytes} {c : PluginConf} (h : ReadAs b c) : ConfOk c ∧ c.prevResult = none := by
  obtain ⟨j, hj, h⟩ := h
  have hw := Json.parse_WF hj
  simp only [decPluginConf, Option.bind_eq_bind, Option.bind_eq_some_iff] at h
  obtain ⟨ms, hm, v, hv, n, hn, t, ht, ca, hca, ip, hip, d, hdd, p, hpv, a, haa, he⟩ := h
  simp only [Option.some.injEq] at he
  subst he
  have hm := members_wf hw hm
  have ks := fun {r : Bytes} {f : Bytes} (h : decAll decStr [] (getField pluginConfFields f ms) = some r) =>
    decAll_inv (P := fun s => isUtf8 s = true) (Q := Json.WF) (fun c v r hc hv h => decStr_text hc hv h) rfl (field_wf hm) h
  refine ⟨⟨ks hv, ks hn, ks ht, ?_, ?_, ?_, ?_, ?_⟩, rfl⟩
  · refine decAll_inv (P := fun r => GoMap.Sorted r ∧ ∀ p ∈ r, isUtf8 p.1 = true) (Q := Json.WF) ?_ (i := []) ⟨trivial, by simp⟩ (field_wf hm) hca
    intro c v r hc hv hr
    exact ⟨decBoolMap_sorted hc.1 hr, decBoolMap_utf8 hv hc.2 hr⟩
  · exact decAll_inv (P := fun s => isUtf8 s = true) (Q := Json.WF) (fun c v r hc hv h => decIpam_utf8 hc hv h) rfl (field_wf hm) hip
  · refine decAll_inv (P := DnsOk) (Q := Json.WF) (fun c v r hc hv h => decDns_utf8 hc hv h) (by decide) (field_wf hm) hdd
  · exact decAll_inv (P := fun r => ∀ m, r = some m → GoMap.Sorted m ∧ ∀ p ∈ m, isUtf8 p.1 = true ∧ p.2.Normal) (Q := Json.WF)
      (fun c v r hc hv h => decAnyMap_normal hc hv h) (by simp) (field_wf hm) hpv
  · exact decAll_inv (P := fun r : List GCAttachment => ∀ a ∈ r, isUtf8 a.containerID = true ∧ isUtf8 a.ifName = true) (Q := Json.WF)
      (fun c v r hc hv h => decAttachments_utf8 hv h) (by simp) (field_wf hm) haa

/-- C59: a plugin that reads its configuration, and prints it again for another one, passes on what it read. -/
theorem c59_pass_on (b : Bytes) (c : PluginConf) (h : ReadAs b c) (hp : c.rawPrev ≠ some []) : ∃ b', c.marshal = .ok b' ∧ ReadAs b' c := by
  obtain ⟨hok, hn⟩ := readAs_ok h
  obtain ⟨b', h1, h2⟩ := c59_round_trip c hok
  refine ⟨b', h1, ?_⟩
  have : reread c = c := by
    unfold reread
    rw [if_neg hp, ← hn]
  rwa [this] at h2

/-! ### concrete cases -/

namespace Example

/-- C59: a configuration with everything in it. -/
def confAll : PluginConf :=
  { cniVersion := b!"1.1.0", name := b!"net", type := b!"a", capabilities := [(b!"ips", true), (b!"mac", false)], ipamType := b!"host-local",
    dns := { nameservers := [b!"10.0.0.1"] }, rawPrev := some [(b!"cniVersion", .str b!"1.1.0"), (b!"ips", .arr [])],
    validAttachments := [⟨b!"c1", b!"eth0"⟩] }

example : ConfOk confAll := by
  refine ⟨by decide, by decide, by decide, ⟨?_, by decide⟩, by decide, by decide, ?_, by decide⟩
  · simp [confAll, GoMap.Sorted]; decide
  · intro m hm
    cases hm
    refine ⟨by simp [GoMap.Sorted]; decide, ?_⟩
    intro p hp
    simp at hp
    rcases hp with rfl | rfl
    · exact ⟨by decide, rfl, by simp only [Json.WF]; decide⟩
    · exact ⟨by decide, rfl, by simp [Json.WF, Json.WFList]⟩

example : confAll.marshal.toOption = some (b!"{\"capabilities\":{\"ips\":true,\"mac\":false},\"cni.dev/valid-attachments\":[{\"containerID\":\"c1\",\"ifname\":\"eth0\"}],\"cniVersion\":\"1.1.0\",\"dns\":{\"nameservers\":[\"10.0.0.1\"]},\"ipam\":{\"type\":\"host-local\"},\"name\":\"net\",\"prevResult\":{\"cniVersion\":\"1.1.0\",\"ips\":[]},\"type\":\"a\"}") := by
  decide +kernel

/-- C59: an empty one. -/
example : (({ } : PluginConf).marshal).toOption = some b!"{\"ipam\":{}}" := by decide +kernel

end Example

end Verif
