/-
Documents that decode the same: equal up to the order of object members. Printing a struct and
going through `map[string]interface{}` yields alike documents as long as its numbers are exact.
-/
import Verif.Json.Decode

namespace Verif
set_option linter.unusedSimpArgs false

/-- Equal up to member order (object keys distinct). Proof device: models no code. (Relation on
documents used in statements.) -/
inductive Json.Alike : Json → Json → Prop
  | null : Alike .null .null
  | bool (b : Bool) : Alike (.bool b) (.bool b)
  | num (l : Bytes) : Alike (.num l) (.num l)
  | str (s : Bytes) : Alike (.str s) (.str s)
  | arr {l l' : List Json} (hl : l.length = l'.length)
      (h : ∀ i (h1 : i < l.length) (h2 : i < l'.length), Alike l[i] l'[i]) : Alike (.arr l) (.arr l')
  | obj {ms ms' : List (Bytes × Json)} (g : Bytes → Json) (hn : (ms'.map Prod.fst).Nodup)
      (h0 : ∀ k, GoMap.get? ms k = none → GoMap.get? ms' k = none)
      (h1 : ∀ k v, GoMap.get? ms k = some v → GoMap.get? ms' k = some (g k))
      (h2 : ∀ k v, GoMap.get? ms k = some v → Alike v (g k)) : Alike (.obj ms) (.obj ms')

mutual
/-- All object keys distinct, at every level. Proof device: models no code. (Relation on documents
used in statements.) -/
def Json.Uniq : Json → Prop
  | .arr l => Json.UniqList l
  | .obj ms => (ms.map Prod.fst).Nodup ∧ Json.UniqMembers ms
  | _ => True
/-- Proof device: models no code. (Relation on documents used in statements.) -/
def Json.UniqList : List Json → Prop
  | [] => True
  | j :: l => j.Uniq ∧ Json.UniqList l
/-- Proof device: models no code. (Relation on documents used in statements.) -/
def Json.UniqMembers : List (Bytes × Json) → Prop
  | [] => True
  | m :: l => m.2.Uniq ∧ Json.UniqMembers l
end

mutual
/-- All numbers survive float64. Proof device: models no code. (Relation on documents used in
statements.) -/
def Json.Exact : Json → Prop
  | .num l => normNum l = some l
  | .arr l => Json.ExactList l
  | .obj ms => Json.ExactMembers ms
  | _ => True
/-- Proof device: models no code. (Relation on documents used in statements.) -/
def Json.ExactList : List Json → Prop
  | [] => True
  | j :: l => j.Exact ∧ Json.ExactList l
/-- Proof device: models no code. (Relation on documents used in statements.) -/
def Json.ExactMembers : List (Bytes × Json) → Prop
  | [] => True
  | m :: l => m.2.Exact ∧ Json.ExactMembers l
end

theorem UniqList_iff {l : List Json} : Json.UniqList l ↔ ∀ j ∈ l, j.Uniq := by
  induction l with
  | nil => simp [Json.UniqList]
  | cons m l ih => simp [Json.UniqList, ih]
theorem UniqMembers_iff {l : List (Bytes × Json)} : Json.UniqMembers l ↔ ∀ m ∈ l, m.2.Uniq := by
  induction l with
  | nil => simp [Json.UniqMembers]
  | cons m l ih => simp only [Json.UniqMembers, ih, List.forall_mem_cons]
theorem ExactList_iff {l : List Json} : Json.ExactList l ↔ ∀ j ∈ l, j.Exact := by
  induction l with
  | nil => simp [Json.ExactList]
  | cons m l ih => simp [Json.ExactList, ih]
theorem ExactMembers_iff {l : List (Bytes × Json)} : Json.ExactMembers l ↔ ∀ m ∈ l, m.2.Exact := by
  induction l with
  | nil => simp [Json.ExactMembers]
  | cons m l ih => simp only [Json.ExactMembers, ih, List.forall_mem_cons]

namespace GoMap
variable {α : Type}
theorem get?_of_nodup {l : List (Bytes × α)} (hd : (l.map Prod.fst).Nodup) {k : Bytes} {v : α} (h : (k, v) ∈ l) :
    get? l k = some v := by
  induction l with
  | nil => simp at h
  | cons p l ih =>
    obtain ⟨a, b⟩ := p
    simp only [List.map_cons, List.nodup_cons, List.mem_map] at hd
    simp only [List.mem_cons, Prod.mk.injEq] at h
    simp only [get?]
    rcases h with ⟨rfl, rfl⟩ | h
    · simp
    · have : a ≠ k := by rintro rfl; exact hd.1 ⟨_, h, rfl⟩
      rw [if_neg this]; exact ih hd.2 h

theorem get?_none_iff {l : List (Bytes × α)} {k : Bytes} : get? l k = none ↔ k ∉ l.map Prod.fst := by
  induction l with
  | nil => simp [get?]
  | cons p l ih =>
    obtain ⟨a, b⟩ := p
    simp only [get?, List.map_cons, List.mem_cons, not_or]
    by_cases h : a = k
    · simp [h]
    · simp [h, ih, Ne.symm h]

theorem get?_ofList {l : List (Bytes × α)} (hd : (l.map Prod.fst).Nodup) (k : Bytes) :
    get? (ofList l) k = get? l k := by
  show get? (insertAll [] l) k = _
  rw [get?_insertAll, get?_reverse_of_nodup hd]
  simp [get?]
end GoMap

mutual
theorem Json.alike_refl (j : Json) (h : j.Uniq) : j.Alike j := by
  cases j with
  | null => exact .null
  | bool b => exact .bool b
  | num l => exact .num l
  | str s => exact .str s
  | arr l =>
    refine .arr rfl ?_
    intro i h1 _
    exact Json.alike_refl_list l h i h1
  | obj ms =>
    refine .obj (fun k => (GoMap.get? ms k).getD .null) h.1 (fun k hk => hk) ?_ ?_
    · intro k v hv; simp [hv]
    · intro k v hv
      simp only [hv, Option.getD_some]
      exact Json.alike_refl_members ms h.2 k v (GoMap.get?_some_mem hv)
theorem Json.alike_refl_list (l : List Json) (h : Json.UniqList l) : ∀ i (h1 : i < l.length), l[i].Alike l[i] := by
  cases l with
  | nil => intro i h1; simp at h1
  | cons a l =>
    intro i h1
    cases i with
    | zero => exact Json.alike_refl a h.1
    | succ i => exact Json.alike_refl_list l h.2 i (by simpa using h1)
theorem Json.alike_refl_members (l : List (Bytes × Json)) (h : Json.UniqMembers l) :
    ∀ k v, (k, v) ∈ l → v.Alike v := by
  cases l with
  | nil => intro k v hm; simp at hm
  | cons a l =>
    intro k v hm
    obtain ⟨a1, a2⟩ := a
    have h1 := Json.alike_refl a2 h.1
    simp only [List.mem_cons, Prod.mk.injEq] at hm
    rcases hm with ⟨_, e⟩ | hm
    · exact e ▸ h1
    · exact Json.alike_refl_members l h.2 k v hm
end

mutual
theorem Json.toAny_alike (j : Json) (hu : j.Uniq) (he : j.Exact) : ∃ j', j.toAny = some j' ∧ j.Alike j' := by
  cases j with
  | null => exact ⟨_, rfl, .null⟩
  | bool b => exact ⟨_, rfl, .bool b⟩
  | num l => exact ⟨.num l, by simp [Json.toAny, show normNum l = some l from he], .num l⟩
  | str s => exact ⟨_, rfl, .str s⟩
  | arr l =>
    obtain ⟨l', h1, h2, h3⟩ := Json.toAnyList_alike l hu he
    exact ⟨.arr l', by simp [Json.toAny, h1], .arr h2 h3⟩
  | obj ms =>
    obtain ⟨ms', h1, h2, h3⟩ := Json.toAnyMembers_alike ms hu.2 he
    have hn : (ms'.map Prod.fst).Nodup := h2 ▸ hu.1
    refine ⟨.obj (GoMap.ofList ms'), by simp [Json.toAny, h1], ?_⟩
    refine .obj (fun k => (GoMap.get? ms' k).getD .null) (GoMap.sorted_nodup (GoMap.sorted_ofList ms')) ?_ ?_ ?_
    · intro k hk
      rw [GoMap.get?_ofList hn]
      rw [GoMap.get?_none_iff] at *
      rwa [h2] at hk
    · intro k v hv
      rw [GoMap.get?_ofList hn]
      obtain ⟨v', hv', _⟩ := h3 k v hv
      simp [hv']
    · intro k v hv
      obtain ⟨v', hv', ha⟩ := h3 k v hv
      simpa [hv'] using ha
theorem Json.toAnyList_alike (l : List Json) (hu : Json.UniqList l) (he : Json.ExactList l) :
    ∃ l', Json.toAnyList l = some l' ∧ l.length = l'.length ∧
      ∀ i (h1 : i < l.length) (h2 : i < l'.length), l[i].Alike l'[i] := by
  cases l with
  | nil => exact ⟨[], rfl, rfl, fun i h1 => by simp at h1⟩
  | cons a l =>
    obtain ⟨a', ha, hal⟩ := Json.toAny_alike a hu.1 he.1
    obtain ⟨l', h1, h2, h3⟩ := Json.toAnyList_alike l hu.2 he.2
    refine ⟨a' :: l', by simp [Json.toAnyList, ha, h1], by simp [h2], ?_⟩
    intro i hi hi'
    cases i with
    | zero => exact hal
    | succ i => exact h3 i (by simpa using hi) (by simpa using hi')
theorem Json.toAnyMembers_alike (l : List (Bytes × Json)) (hu : Json.UniqMembers l) (he : Json.ExactMembers l) :
    ∃ l', Json.toAnyMembers l = some l' ∧ l.map Prod.fst = l'.map Prod.fst ∧
      ∀ k v, GoMap.get? l k = some v → ∃ v', GoMap.get? l' k = some v' ∧ v.Alike v' := by
  cases l with
  | nil => exact ⟨[], rfl, rfl, fun i v h1 => by simp [GoMap.get?] at h1⟩
  | cons a l =>
    obtain ⟨k0, a⟩ := a
    obtain ⟨a', ha, hal⟩ := Json.toAny_alike a hu.1 he.1
    obtain ⟨l', h1, h2, h3⟩ := Json.toAnyMembers_alike l hu.2 he.2
    refine ⟨(k0, a') :: l', by simp [Json.toAnyMembers, ha, h1], by simp [h2], ?_⟩
    intro k v hv
    simp only [GoMap.get?] at hv ⊢
    split at hv
    · simp only [Option.some.injEq] at hv
      subst hv
      rename_i hk
      exact ⟨a', by simp [hk], hal⟩
    · rename_i hk
      simp only [hk, if_false]
      exact h3 k v hv
end

/-- Erasing a key keeps documents alike. -/
theorem Json.Alike.erase {ms ms' : List (Bytes × Json)} (h : (Json.obj ms).Alike (.obj ms')) (k : Bytes) :
    (Json.obj (GoMap.erase ms k)).Alike (.obj (GoMap.erase ms' k)) := by
  cases h with
  | obj g hn h0 h1 h2 =>
    refine .obj g ?_ ?_ ?_ ?_
    · exact List.Nodup.sublist (List.Sublist.map _ (List.filter_sublist)) hn
    · intro k' hk'
      rw [GoMap.get?_erase] at *
      split <;> simp_all
    · intro k' v hv
      rw [GoMap.get?_erase] at *
      split at hv
      · cases hv
      · rename_i hne; simp [hne, h1 k' v hv]
    · intro k' v hv
      rw [GoMap.get?_erase] at hv
      split at hv
      · cases hv
      · exact h2 k' v hv

/-- Struct fields of a document whose keys are all exact field names. -/
theorem getField_exact {names : List Bytes} {ms : List (Bytes × Json)} (hk : ∀ k ∈ ms.map Prod.fst, k ∈ names)
    (hn : (ms.map Prod.fst).Nodup) (f : Bytes) : getField names f ms = (GoMap.get? ms f).toList := by
  induction ms with
  | nil => rfl
  | cons m ms ih =>
    obtain ⟨k, v⟩ := m
    have hmem : k ∈ names := hk k (by simp)
    have hfm : fieldMatch names k = some k := by simp [fieldMatch, hmem]
    simp only [List.map_cons, List.nodup_cons] at hn
    have ih := ih (fun k' hk' => hk k' (by simp [hk'])) hn.2
    rw [getField_cons, hfm, ih]
    simp only [GoMap.get?, Option.some.injEq]
    by_cases h : k = f
    · subst h
      have : GoMap.get? ms k = none := GoMap.get?_none_iff.mpr hn.1
      simp [this]
    · simp [h]

/-- Decoding one field from an alike document. -/
theorem Json.Alike.dec {ms ms' : List (Bytes × Json)} (h : (Json.obj ms).Alike (.obj ms')) {names : List Bytes}
    (hk : ∀ k ∈ ms.map Prod.fst, k ∈ names) {α : Type} {dec : α → Json → Option α} {d y : α} (f : Bytes)
    (hnone : GoMap.get? ms f = none → d = y)
    (hsome : ∀ v v', GoMap.get? ms f = some v → v.Alike v' → dec d v' = some y) :
    decAll dec d (getField names f ms') = some y := by
  cases h with
  | obj g hn h0 h1 h2 =>
    have hk' : ∀ k ∈ ms'.map Prod.fst, k ∈ names := by
      intro k hkm
      apply hk
      refine Classical.byContradiction fun hc => ?_
      exact GoMap.get?_none_iff.mp (h0 k (GoMap.get?_none_iff.mpr hc)) hkm
    rw [getField_exact hk' hn]
    cases hf : GoMap.get? ms f with
    | none => rw [h0 f hf]; simp [decAll_nil, hnone hf]
    | some v =>
      rw [h1 f v hf]
      simp only [Option.toList]
      rw [decAll_one]
      exact hsome v _ hf (h2 f v hf)

theorem Json.Alike.structMembers {j j' : Json} {ms : List (Bytes × Json)} (h : j.Alike j') (hj : j = .obj ms) :
    ∃ ms', j' = .obj ms' ∧ Verif.structMembers j' = some ms' ∧ (Json.obj ms).Alike (.obj ms') := by
  subst hj
  cases h with
  | obj g hn h0 h1 h2 => exact ⟨_, rfl, rfl, .obj g hn h0 h1 h2⟩

/-- List elements. -/
theorem Json.Alike.elems {α : Type} {enc : α → Json} {dec : Json → Option α} {l : List α} {j' : Json}
    (h : (Json.arr (l.map enc)).Alike j') (hrt : ∀ x ∈ l, ∀ v', (enc x).Alike v' → dec v' = some x) :
    ∃ l', j' = .arr l' ∧ l'.mapM dec = some l := by
  cases h with
  | arr hl h =>
    rename_i l'
    refine ⟨l', rfl, ?_⟩
    induction l generalizing l' with
    | nil =>
      cases l' with
      | nil => rfl
      | cons b l' => simp at hl
    | cons a l ih =>
      cases l' with
      | nil => simp at hl
      | cons b l' =>
        have h0 : (enc a).Alike b := h 0 (by simp) (by simp)
        have := ih (l' := l') (fun x hx => hrt x (by simp [hx])) (by simpa using hl) (by
          intro i h1 h2
          exact h (i + 1) (by simpa using h1) (by simpa using h2))
        simp only [List.mapM_cons, hrt a (by simp) b h0, this]
        rfl

end Verif
