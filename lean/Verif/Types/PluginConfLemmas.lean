/- How storing a member changes what a plugin configuration decodes to. -/
import Verif.Types.PluginConf
import Verif.Json.Clean

namespace Verif
set_option linter.unusedSimpArgs false

/-- Whether a value decodes does not depend on what was decoded before. Proof device: models no
code. -/
def CurIndep {α : Type} (dec : α → Json → Option α) : Prop := ∀ c c' v, (dec c v).isSome = (dec c' v).isSome

theorem decAll_isSome {α : Type} {dec : α → Json → Option α} (h : CurIndep dec) (i i' : α) (vs : List Json) :
    (decAll dec i vs).isSome = true ↔ ∀ v ∈ vs, (dec i' v).isSome = true := by
  induction vs generalizing i with
  | nil => simp [decAll_nil]
  | cons v vs ih =>
    rw [decAll_cons]
    cases hv : dec i v with
    | none =>
      have := h i i' v
      rw [hv] at this
      simp [← this]
    | some a =>
      have := h i i' v
      rw [hv] at this
      simp [← this, ih a]

theorem decAll_curIndep {α : Type} {dec : α → Json → Option α} (h : CurIndep dec) (i i' : α) (vs : List Json) :
    (decAll dec i vs).isSome = (decAll dec i' vs).isSome := by
  rw [Bool.eq_iff_iff, decAll_isSome h i i, decAll_isSome h i' i]

theorem curIndep_decStr : CurIndep decStr := by intro c c' v; cases v <;> rfl
theorem curIndep_decStrList : CurIndep decStrList := by intro c c' v; cases v <;> rfl
theorem curIndep_decBoolMap : CurIndep decBoolMap := by
  intro c c' v
  cases v with
  | obj ms => simp only [decBoolMap, Option.isSome_map]
  | _ => rfl
theorem curIndep_decAnyMap : CurIndep decAnyMap := by
  intro c c' v
  cases v with
  | obj ms => simp only [decAnyMap, Option.isSome_map]
  | _ => rfl
theorem curIndep_decIpam : CurIndep decIpam := by
  intro c c' v
  simp only [decIpam]
  cases structMembers v with
  | none => rfl
  | some ms => exact decAll_curIndep curIndep_decStr c c' _
theorem curIndep_decList {α : Type} (dec : Json → Option α) : CurIndep (decList dec) := by
  intro c c' v; cases v <;> rfl

theorem bind_isSome {α β : Type} (o : Option α) (f : α → Option β) (p : Bool) (h : ∀ a, (f a).isSome = p) :
    (o.bind f).isSome = (o.isSome && p) := by
  cases o with
  | none => rfl
  | some a => simp [h]

theorem curIndep_decDns : CurIndep decDns := by
  intro c c' v
  simp only [decDns]
  cases structMembers v with
  | none => rfl
  | some ms =>
    show (Option.bind (decAll decStrList c.nameservers _) _).isSome = (Option.bind (decAll decStrList c'.nameservers _) _).isSome
    rw [bind_isSome _ _ ((decAll decStr c.domain (getField dnsFields b!"domain" ms)).isSome &&
        ((decAll decStrList c.search (getField dnsFields b!"search" ms)).isSome &&
        (decAll decStrList c.options (getField dnsFields b!"options" ms)).isSome)),
      bind_isSome _ _ ((decAll decStr c'.domain (getField dnsFields b!"domain" ms)).isSome &&
        ((decAll decStrList c'.search (getField dnsFields b!"search" ms)).isSome &&
        (decAll decStrList c'.options (getField dnsFields b!"options" ms)).isSome)),
      decAll_curIndep curIndep_decStrList c.nameservers c'.nameservers, decAll_curIndep curIndep_decStr c.domain c'.domain,
      decAll_curIndep curIndep_decStrList c.search c'.search, decAll_curIndep curIndep_decStrList c.options c'.options]
    all_goals
      intro a
      show (Option.bind _ _).isSome = _
      apply bind_isSome; intro a
      show (Option.bind _ _).isSome = _
      apply bind_isSome; intro a
      show (Option.bind _ _).isSome = _
      rw [bind_isSome _ _ true (by intro a; rfl), Bool.and_true]

/-- Whether a value can be stored into field `f` of a plugin configuration. The decoding of
pkg/types/types.go:64-78 `PluginConf` in closed form, for proofs. -/
def fieldOK (f : Bytes) (v : Json) : Bool :=
  if f = b!"capabilities" then (decBoolMap [] v).isSome
  else if f = b!"ipam" then (decIpam [] v).isSome
  else if f = b!"dns" then (decDns {} v).isSome
  else if f = b!"prevResult" then (decAnyMap none v).isSome
  else if f = b!"cni.dev/valid-attachments" then (decList decAttachment [] v).isSome
  else (decStr [] v).isSome

theorem decPluginConf_isSome (ms : List (Bytes × Json)) :
    (decPluginConf (.obj ms)).isSome = true ↔
      ∀ f ∈ pluginConfFields, ∀ v ∈ getField pluginConfFields f ms, fieldOK f v = true := by
  have e : (decPluginConf (.obj ms)).isSome =
      ((decAll decStr [] (getField pluginConfFields b!"cniVersion" ms)).isSome &&
      ((decAll decStr [] (getField pluginConfFields b!"name" ms)).isSome &&
      ((decAll decStr [] (getField pluginConfFields b!"type" ms)).isSome &&
      ((decAll decBoolMap [] (getField pluginConfFields b!"capabilities" ms)).isSome &&
      ((decAll decIpam [] (getField pluginConfFields b!"ipam" ms)).isSome &&
      ((decAll decDns {} (getField pluginConfFields b!"dns" ms)).isSome &&
      ((decAll decAnyMap none (getField pluginConfFields b!"prevResult" ms)).isSome &&
      (decAll (decList decAttachment) [] (getField pluginConfFields b!"cni.dev/valid-attachments" ms)).isSome))))))) := by
    simp only [decPluginConf, structMembers]
    show (Option.bind (decAll decStr [] (getField pluginConfFields b!"cniVersion" ms)) _).isSome = _
    repeat (apply bind_isSome; intro a; show (Option.bind _ _).isSome = _)
    rw [bind_isSome _ _ true (by intro a; rfl), Bool.and_true]
  rw [e]
  simp only [Bool.and_eq_true, decAll_isSome curIndep_decStr [] [], decAll_isSome curIndep_decBoolMap [] [],
    decAll_isSome curIndep_decIpam [] [], decAll_isSome curIndep_decDns {} {}, decAll_isSome curIndep_decAnyMap none none,
    decAll_isSome (curIndep_decList decAttachment) [] []]
  simp only [pluginConfFields, List.mem_cons, List.not_mem_nil, or_false, forall_eq_or_imp, forall_eq, fieldOK, if_true]
  simp

/-! ### storing a member -/

theorem getField_insert_ne {names : List Bytes} {f k : Bytes} (h : fieldMatch names k ≠ some f) (m : GoMap Json) (v : Json) :
    getField names f (GoMap.insert m k v) = getField names f m := by
  induction m with
  | nil => exact getField_cons_ne h
  | cons a m ih =>
    obtain ⟨k', v'⟩ := a
    simp only [GoMap.insert]
    split
    · rename_i hk
      subst hk
      rw [getField_cons_ne h, getField_cons_ne h]
    · split
      · rw [getField_cons_ne h]
      · rw [getField_cons, getField_cons, ih]

theorem mem_getField {names : List Bytes} {f : Bytes} {ms : List (Bytes × Json)} {v : Json} :
    v ∈ getField names f ms ↔ ∃ k, (k, v) ∈ ms ∧ fieldMatch names k = some f := by
  simp only [getField, List.mem_filterMap]
  constructor
  · rintro ⟨⟨k, w⟩, hm, h⟩
    split at h
    · rename_i hf; simp at h; subst h; exact ⟨k, hm, hf⟩
    · cases h
  · rintro ⟨k, hm, hf⟩; exact ⟨_, hm, by simp [hf]⟩

/-- Storing a value that fits its field keeps the configuration decodable. -/
theorem decPluginConf_insert_isSome {m : GoMap Json} {k : Bytes} {v : Json} (h : (decPluginConf (.obj m)).isSome = true)
    (hv : ∀ f, fieldMatch pluginConfFields k = some f → fieldOK f v = true) :
    (decPluginConf (.obj (GoMap.insert m k v))).isSome = true := by
  rw [decPluginConf_isSome] at h ⊢
  intro f hf w hw
  obtain ⟨k', hm, hk'⟩ := mem_getField.1 hw
  rcases GoMap.mem_insert hm with e | hm
  · cases e; exact hv f hk'
  · exact h f hf w (mem_getField.2 ⟨k', hm, hk'⟩)

theorem decPluginConf_capabilities {ms : List (Bytes × Json)} {c : PluginConf} (h : decPluginConf (.obj ms) = some c) :
    decAll decBoolMap [] (getField pluginConfFields b!"capabilities" ms) = some c.capabilities := by
  simp only [decPluginConf, structMembers, Option.bind_eq_bind, Option.bind_some, Option.bind_eq_some_iff] at h
  obtain ⟨_, _, _, _, _, _, a, ha, _, _, _, _, _, _, _, _, h⟩ := h
  simp only [Option.some.injEq] at h
  subst h
  exact ha

theorem decPluginConf_type {ms : List (Bytes × Json)} {c : PluginConf} (h : decPluginConf (.obj ms) = some c) :
    decAll decStr [] (getField pluginConfFields b!"type" ms) = some c.type := by
  simp only [decPluginConf, structMembers, Option.bind_eq_bind, Option.bind_some, Option.bind_eq_some_iff] at h
  obtain ⟨_, _, _, _, a, ha, _, _, _, _, _, _, _, _, _, _, h⟩ := h
  simp only [Option.some.injEq] at h
  subst h
  exact ha

theorem decPluginConf_name {ms : List (Bytes × Json)} {c : PluginConf} (h : decPluginConf (.obj ms) = some c) :
    decAll decStr [] (getField pluginConfFields b!"name" ms) = some c.name := by
  simp only [decPluginConf, structMembers, Option.bind_eq_bind, Option.bind_some, Option.bind_eq_some_iff] at h
  obtain ⟨_, _, a, ha, _, _, _, _, _, _, _, _, _, _, _, _, h⟩ := h
  simp only [Option.some.injEq] at h
  subst h
  exact ha

/-- Storing a member that is not the type or the capabilities changes neither. -/
theorem decPluginConf_insert {m : GoMap Json} {k : Bytes} {v : Json} {c : PluginConf} (h : decPluginConf (.obj m) = some c)
    (hv : ∀ f, fieldMatch pluginConfFields k = some f → fieldOK f v = true)
    (ht : fieldMatch pluginConfFields k ≠ some b!"type") (hc : fieldMatch pluginConfFields k ≠ some b!"capabilities") :
    ∃ c', decPluginConf (.obj (GoMap.insert m k v)) = some c' ∧ c'.type = c.type ∧ c'.capabilities = c.capabilities := by
  obtain ⟨c', hc'⟩ := Option.isSome_iff_exists.1 (decPluginConf_insert_isSome (v := v) (by rw [h]; rfl) hv)
  refine ⟨c', hc', ?_, ?_⟩
  · have := decPluginConf_type hc'
    rw [getField_insert_ne ht, decPluginConf_type h] at this
    exact (Option.some.inj this).symm
  · have := decPluginConf_capabilities hc'
    rw [getField_insert_ne hc, decPluginConf_capabilities h] at this
    exact (Option.some.inj this).symm

/-! ### capabilities -/

theorem decBoolMap_sorted {cur : GoMap Bool} {v : Json} {r : GoMap Bool} (hs : GoMap.Sorted cur) (h : decBoolMap cur v = some r) :
    GoMap.Sorted r := by
  cases v with
  | null => simp [decBoolMap] at h; subst h; trivial
  | obj ms =>
    simp only [decBoolMap, Option.map_eq_some_iff] at h
    obtain ⟨l, _, rfl⟩ := h
    exact GoMap.sorted_insertAll hs l
  | _ => simp [decBoolMap] at h

theorem mapM_keys {ms : List (Bytes × Json)} {l : List (Bytes × Bool)}
    (h : (ms.mapM fun m => (decBool false m.2).map fun b => (m.1, b)) = some l) : l.map Prod.fst = ms.map Prod.fst := by
  induction ms generalizing l with
  | nil => simp at h; subst h; rfl
  | cons m ms ih =>
    simp only [List.mapM_cons, Option.bind_eq_bind, Option.bind_eq_some_iff, Option.map_eq_some_iff] at h
    obtain ⟨_, ⟨b, hb, rfl⟩, l', hl, h⟩ := h
    simp only [Option.pure_def, Option.some.injEq] at h
    subst h
    simp [ih hl]

theorem insertAll_keys {α : Type} {m : GoMap α} {l : List (Bytes × α)} {k : Bytes} {v : α} (h : (k, v) ∈ GoMap.insertAll m l) :
    (k, v) ∈ m ∨ (k, v) ∈ l := by
  induction l generalizing m with
  | nil => exact Or.inl h
  | cons a l ih =>
    have h : (k, v) ∈ GoMap.insertAll (GoMap.insert m a.1 a.2) l := h
    rcases ih h with h | h
    · rcases GoMap.mem_insert h with e | h
      · right; rw [e]; simp
      · left; exact h
    · right; simp [h]

theorem decBoolMap_utf8 {cur : GoMap Bool} {v : Json} {r : GoMap Bool} (hw : v.WF) (hc : ∀ p ∈ cur, isUtf8 p.1 = true)
    (h : decBoolMap cur v = some r) : ∀ p ∈ r, isUtf8 p.1 = true := by
  cases v with
  | null => simp [decBoolMap] at h; subst h; simp
  | obj ms =>
    simp only [decBoolMap, Option.map_eq_some_iff] at h
    obtain ⟨l, hl, rfl⟩ := h
    rintro ⟨k, b⟩ hp
    rcases insertAll_keys hp with h | h
    · exact hc _ h
    · have : k ∈ ms.map Prod.fst := by rw [← mapM_keys hl]; exact List.mem_map.2 ⟨_, h, rfl⟩
      obtain ⟨x, hx, rfl⟩ := List.mem_map.1 this
      simp only [Json.WF] at hw
      rw [WFMembers_iff] at hw
      exact (hw x hx).1
  | _ => simp [decBoolMap] at h

theorem decAll_inv {α : Type} {dec : α → Json → Option α} {P : α → Prop} {Q : Json → Prop}
    (h : ∀ c v r, P c → Q v → dec c v = some r → P r) {vs : List Json} {i r : α} (hi : P i) (hq : ∀ v ∈ vs, Q v)
    (hd : decAll dec i vs = some r) : P r := by
  induction vs generalizing i with
  | nil => cases hd; exact hi
  | cons v vs ih =>
    rw [decAll_cons, Option.bind_eq_some_iff] at hd
    obtain ⟨a, ha, hd⟩ := hd
    exact ih (h _ _ _ hi (hq v (by simp)) ha) (fun x hx => hq x (by simp [hx])) hd

/-- The capabilities of a decoded configuration are a map with UTF-8 keys. -/
theorem capabilities_ok {ms : List (Bytes × Json)} {c : PluginConf} (hw : (Json.obj ms).WF)
    (h : decPluginConf (.obj ms) = some c) : GoMap.Sorted c.capabilities ∧ ∀ p ∈ c.capabilities, isUtf8 p.1 = true := by
  have := decPluginConf_capabilities h
  refine decAll_inv (P := fun r => GoMap.Sorted r ∧ ∀ p ∈ r, isUtf8 p.1 = true) (Q := Json.WF) ?_ (i := []) ⟨trivial, by simp⟩ ?_ this
  · intro c v r hc hv hr
    exact ⟨decBoolMap_sorted hc.1 hr, decBoolMap_utf8 hv hc.2 hr⟩
  · intro v hv
    obtain ⟨k, hk, _⟩ := mem_getField.1 hv
    simp only [Json.WF] at hw
    rw [WFMembers_iff] at hw
    exact (hw _ hk).2


/-! ### decodability after going through `interface{}` -/

/-- Whether the value decodes is not affected by going through `interface{}`. Proof device: models
no code. -/
def AnyStable {α : Type} (dec : α → Json → Option α) : Prop :=
  ∀ c v w, (dec c v).isSome = true → v.toAny = some w → (dec c w).isSome = true

theorem anyStable_decStr : AnyStable decStr := by
  intro c v w h hw
  cases v <;> simp [decStr] at h
  all_goals (simp [Json.toAny] at hw; subst hw; simp [decStr])

theorem toAnyList_mem {l l' : List Json} (h : Json.toAnyList l = some l') : ∀ w ∈ l', ∃ v ∈ l, v.toAny = some w := by
  induction l generalizing l' with
  | nil => simp [Json.toAnyList] at h; subst h; simp
  | cons j l ih =>
    simp only [Json.toAnyList] at h
    split at h
    · rename_i j' l'' hj hl
      simp only [Option.some.injEq] at h; subst h
      intro w hw
      rcases List.mem_cons.1 hw with rfl | hw
      · exact ⟨j, by simp, hj⟩
      · obtain ⟨v, hv, e⟩ := ih hl w hw; exact ⟨v, by simp [hv], e⟩
    · cases h

theorem decStrElems_isSome (l : List Json) : (decStrElems l).isSome = true ↔ ∀ v ∈ l, (decStr [] v).isSome = true := by
  induction l with
  | nil => simp [decStrElems]
  | cons j l ih => cases j <;> simp [decStrElems, decStr, ih]

theorem anyStable_decStrList : AnyStable decStrList := by
  intro c v w h hw
  cases v with
  | null => simp [Json.toAny] at hw; subst hw; rfl
  | arr l =>
    simp only [Json.toAny, Option.map_eq_some_iff] at hw
    obtain ⟨l', hl, rfl⟩ := hw
    simp only [decStrList] at h ⊢
    rw [decStrElems_isSome] at h ⊢
    intro w hw
    obtain ⟨v, hv, e⟩ := toAnyList_mem hl w hw
    exact anyStable_decStr [] v w (h v hv) e
  | _ => simp [decStrList] at h

theorem mapM_isSome {α : Type} (dec : Json → Option α) (l : List Json) :
    (l.mapM dec).isSome = true ↔ ∀ v ∈ l, (dec v).isSome = true := by
  induction l with
  | nil => simp
  | cons j l ih =>
    simp only [List.mapM_cons, List.mem_cons, forall_eq_or_imp]
    cases h : dec j with
    | none => simp
    | some a =>
      cases hl : l.mapM dec with
      | none => simp [← ih, hl]
      | some b => simp [← ih, hl]

theorem anyStable_decList {α : Type} {dec : Json → Option α}
    (hd : ∀ v w, (dec v).isSome = true → v.toAny = some w → (dec w).isSome = true) : AnyStable (decList dec) := by
  intro c v w h hw
  cases v with
  | null => simp [Json.toAny] at hw; subst hw; rfl
  | arr l =>
    simp only [Json.toAny, Option.map_eq_some_iff] at hw
    obtain ⟨l', hl, rfl⟩ := hw
    simp only [decList] at h ⊢
    rw [mapM_isSome] at h ⊢
    intro w hw
    obtain ⟨v, hv, e⟩ := toAnyList_mem hl w hw
    exact hd v w (h v hv) e
  | _ => simp [decList] at h

/-- One field of a struct after its document went through `interface{}`. -/
theorem field_anyStable {α : Type} {dec : α → Json → Option α} (hc : CurIndep dec) (ha : AnyStable dec) (i : α)
    {names : List Bytes} {f : Bytes} {ms m : List (Bytes × Json)} (hm : Json.toAnyMembers ms = some m)
    (h : (decAll dec i (getField names f ms)).isSome = true) :
    (decAll dec i (getField names f (GoMap.ofList m))).isSome = true := by
  rw [decAll_isSome hc i i] at h ⊢
  intro w hw
  obtain ⟨k, hk, hf⟩ := mem_getField.1 hw
  obtain ⟨⟨k', v⟩, hv, e1, e2⟩ := toAnyMembers_mem hm _ (ofList_mem _ hk)
  simp only at e1 e2
  exact ha i v w (h v (mem_getField.2 ⟨k', hv, by rw [e1]; exact hf⟩)) e2

theorem structMembers_toAny {v w : Json} {ms : List (Bytes × Json)} (h : structMembers v = some ms) (hw : v.toAny = some w) :
    (v = .null ∧ w = .null) ∨ ∃ m, v = .obj ms ∧ Json.toAnyMembers ms = some m ∧ w = .obj (GoMap.ofList m) := by
  cases v with
  | null => simp [Json.toAny] at hw; exact Or.inl ⟨rfl, hw.symm⟩
  | obj l =>
    simp only [structMembers, Option.some.injEq] at h
    subst h
    simp only [Json.toAny, Option.map_eq_some_iff] at hw
    obtain ⟨m, hm, rfl⟩ := hw
    exact Or.inr ⟨m, rfl, hm, rfl⟩
  | _ => simp [structMembers] at h

theorem anyStable_decIpam : AnyStable decIpam := by
  intro c v w h hw
  cases hs : structMembers v with
  | none => simp [decIpam, hs] at h
  | some ms =>
    rcases structMembers_toAny hs hw with ⟨rfl, rfl⟩ | ⟨m, rfl, hm, rfl⟩
    · exact h
    · exact field_anyStable curIndep_decStr anyStable_decStr c hm h

theorem decAttachment_stable (v w : Json) (h : (decAttachment v).isSome = true) (hw : v.toAny = some w) :
    (decAttachment w).isSome = true := by
  cases hs : structMembers v with
  | none => simp [decAttachment, hs] at h
  | some ms =>
    rcases structMembers_toAny hs hw with ⟨rfl, rfl⟩ | ⟨m, rfl, hm, rfl⟩
    · exact h
    · have e : ∀ l, (decAttachment (.obj l)).isSome
          = ((decAll decStr [] (getField [b!"containerID", b!"ifname"] b!"containerID" l)).isSome &&
            (decAll decStr [] (getField [b!"containerID", b!"ifname"] b!"ifname" l)).isSome) := by
        intro l
        simp only [decAttachment, structMembers]
        show (Option.bind (decAll decStr [] _) _).isSome = _
        apply bind_isSome; intro a
        show (Option.bind _ _).isSome = _
        rw [bind_isSome _ _ true (by intro a; rfl), Bool.and_true]
      rw [e, Bool.and_eq_true] at h ⊢
      exact ⟨field_anyStable curIndep_decStr anyStable_decStr [] hm h.1, field_anyStable curIndep_decStr anyStable_decStr [] hm h.2⟩

theorem anyStable_decDns : AnyStable decDns := by
  intro c v w h hw
  cases hs : structMembers v with
  | none => simp [decDns, hs] at h
  | some ms =>
    rcases structMembers_toAny hs hw with ⟨rfl, rfl⟩ | ⟨m, rfl, hm, rfl⟩
    · exact h
    · have e : ∀ l, (decDns c (.obj l)).isSome = ((decAll decStrList c.nameservers (getField dnsFields b!"nameservers" l)).isSome &&
          ((decAll decStr c.domain (getField dnsFields b!"domain" l)).isSome &&
          ((decAll decStrList c.search (getField dnsFields b!"search" l)).isSome &&
          (decAll decStrList c.options (getField dnsFields b!"options" l)).isSome))) := by
        intro l
        simp only [decDns, structMembers]
        show (Option.bind (decAll decStrList c.nameservers _) _).isSome = _
        repeat (apply bind_isSome; intro a; show (Option.bind _ _).isSome = _)
        rw [bind_isSome _ _ true (by intro a; rfl), Bool.and_true]
      rw [e, Bool.and_eq_true, Bool.and_eq_true, Bool.and_eq_true] at h ⊢
      exact ⟨field_anyStable curIndep_decStrList anyStable_decStrList _ hm h.1,
        field_anyStable curIndep_decStr anyStable_decStr _ hm h.2.1,
        field_anyStable curIndep_decStrList anyStable_decStrList _ hm h.2.2.1,
        field_anyStable curIndep_decStrList anyStable_decStrList _ hm h.2.2.2⟩

theorem mapM_bool_isSome (l : List (Bytes × Json)) :
    (l.mapM fun m => (decBool false m.2).map fun b => (m.1, b)).isSome = true ↔ ∀ m ∈ l, (decBool false m.2).isSome = true := by
  induction l with
  | nil => simp
  | cons m l ih =>
    simp only [List.mapM_cons, List.mem_cons, forall_eq_or_imp]
    cases h : decBool false m.2 with
    | none => simp
    | some a =>
      rw [← ih]
      cases hl : (l.mapM fun m => (decBool false m.2).map fun b => (m.1, b)) <;> simp [hl]

theorem anyStable_decBoolMap : AnyStable decBoolMap := by
  intro c v w h hw
  cases v with
  | null => simp [Json.toAny] at hw; subst hw; rfl
  | obj l =>
    simp only [Json.toAny, Option.map_eq_some_iff] at hw
    obtain ⟨l', hl, rfl⟩ := hw
    simp only [decBoolMap, Option.isSome_map] at h ⊢
    rw [mapM_bool_isSome] at h ⊢
    intro x hx
    obtain ⟨y, hy, e1, e2⟩ := toAnyMembers_mem hl x (ofList_mem x hx)
    have := h y hy
    cases hy2 : y.2 <;> rw [hy2] at this e2 <;> simp [decBool, Json.toAny] at this e2 <;> rw [← e2] <;> rfl
  | _ => simp [decBoolMap] at h

theorem anyStable_decAnyMap : AnyStable decAnyMap := by
  intro c v w h hw
  cases v with
  | null => simp [Json.toAny] at hw; subst hw; rfl
  | obj l =>
    have hi := Json.toAny_idem _ _ hw
    simp only [Json.toAny, Option.map_eq_some_iff] at hw
    obtain ⟨l', hl, rfl⟩ := hw
    simp only [Json.toAny, Option.map_eq_some_iff] at hi
    obtain ⟨l2, hl2, _⟩ := hi
    simp [decAnyMap, hl2]
  | _ => simp [decAnyMap] at h

theorem fieldOK_toAny {f : Bytes} {v w : Json} (h : fieldOK f v = true) (hw : v.toAny = some w) : fieldOK f w = true := by
  unfold fieldOK at h ⊢
  repeat' split at h
  all_goals simp only [*, if_true, if_false]
  · exact anyStable_decBoolMap _ _ _ h hw
  · exact anyStable_decIpam _ _ _ h hw
  · exact anyStable_decDns _ _ _ h hw
  · exact anyStable_decAnyMap _ _ _ h hw
  · exact anyStable_decList decAttachment_stable _ _ _ h hw
  · exact anyStable_decStr _ _ _ h hw

/-- A configuration that decodes still does after going through a map (its type may change, if stated twice). -/
theorem decPluginConf_normal {ms m : List (Bytes × Json)} (hm : Json.toAnyMembers ms = some m)
    (h : (decPluginConf (.obj ms)).isSome = true) : (decPluginConf (.obj (GoMap.ofList m))).isSome = true := by
  rw [decPluginConf_isSome] at h ⊢
  intro f hf w hw
  obtain ⟨k, hk, hfm⟩ := mem_getField.1 hw
  obtain ⟨⟨k', v⟩, hv, e1, e2⟩ := toAnyMembers_mem hm _ (ofList_mem _ hk)
  simp only at e1 e2
  exact fieldOK_toAny (h f hf v (mem_getField.2 ⟨k', hv, by rw [e1]; exact hfm⟩)) e2

end Verif
