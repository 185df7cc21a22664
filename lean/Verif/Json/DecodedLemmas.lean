/- Decoding without a schema against Verif.Spec.Decoded: when it works. -/
import Verif.Json.Any
import Verif.Json.Clean
import Verif.Json.FloatLemmas
import Verif.Spec.Decoded

namespace Verif
open Spec

mutual
theorem toAny_inRange (j : Json) (hw : j.NumsOK) : (∃ j', j.toAny = some j') ↔ InRange j := by
  cases j with
  | null => exact ⟨fun _ t ht => (by cases ht), fun _ => ⟨_, rfl⟩⟩
  | bool b => exact ⟨fun _ t ht => (by cases ht), fun _ => ⟨_, rfl⟩⟩
  | str s => exact ⟨fun _ t ht => (by cases ht), fun _ => ⟨_, rfl⟩⟩
  | num l =>
    have hn : NumberText l := numberText_iff.2 hw
    constructor
    · rintro ⟨j', h⟩ t ht hL
      cases ht
      simp [Json.toAny, normNum, (tooLarge_iff.2 hL).2] at h
    · intro h
      cases hp : parseF64 l with
      | none => exact absurd (tooLarge_iff.1 ⟨hn, hp⟩) (h l .num)
      | some f => exact ⟨_, by simp [Json.toAny, normNum, hp]; rfl⟩
  | arr l =>
    constructor
    · rintro ⟨j', h⟩ t ht
      cases ht with
      | arr hm ha =>
        simp only [Json.toAny, Option.map_eq_some_iff] at h
        obtain ⟨l', h, -⟩ := h
        exact (toAnyList_inRange l hw).1 ⟨l', h⟩ _ hm t ha
    · intro h
      obtain ⟨l', hl⟩ := (toAnyList_inRange l hw).2 fun a ha t ht => h t (.arr ha ht)
      exact ⟨.arr l', by simp [Json.toAny, hl]⟩
  | obj l =>
    constructor
    · rintro ⟨j', h⟩ t ht
      cases ht with
      | obj hm ha =>
        simp only [Json.toAny, Option.map_eq_some_iff] at h
        obtain ⟨l', h, -⟩ := h
        exact (toAnyMembers_inRange l hw).1 ⟨l', h⟩ _ hm t ha
    · intro h
      obtain ⟨l', hl⟩ := (toAnyMembers_inRange l hw).2 fun p hp t ht => h t (.obj (k := p.1) (a := p.2) hp ht)
      exact ⟨.obj (GoMap.ofList l'), by simp [Json.toAny, hl]⟩
theorem toAnyList_inRange (l : List Json) (hw : Json.NumsOKList l) : (∃ l', Json.toAnyList l = some l') ↔ ∀ a ∈ l, InRange a := by
  cases l with
  | nil => exact ⟨fun _ a ha => (by cases ha), fun _ => ⟨[], rfl⟩⟩
  | cons j l =>
    have h1 := toAny_inRange j hw.1
    have h2 := toAnyList_inRange l hw.2
    rw [List.forall_mem_cons, ← h1, ← h2]
    simp only [Json.toAnyList]
    cases j.toAny <;> cases Json.toAnyList l <;> simp
theorem toAnyMembers_inRange (l : List (Bytes × Json)) (hw : Json.NumsOKMembers l) : (∃ l', Json.toAnyMembers l = some l') ↔ ∀ p ∈ l, InRange p.2 := by
  cases l with
  | nil => exact ⟨fun _ a ha => (by cases ha), fun _ => ⟨[], rfl⟩⟩
  | cons p l =>
    obtain ⟨k, j⟩ := p
    have h1 := toAny_inRange j hw.1
    have h2 := toAnyMembers_inRange l hw.2
    rw [List.forall_mem_cons, ← h1, ← h2]
    simp only [Json.toAnyMembers]
    cases j.toAny <;> cases Json.toAnyMembers l <;> simp
end

theorem members_inRange {l : List (Bytes × Json)} (hw : (Json.obj l).WF) : (∃ m, Json.toAnyMembers l = some m) ↔ InRange (.obj l) := by
  rw [← toAny_inRange _ (Json.NumsOK_of_WF _ hw)]
  simp only [Json.toAny, Option.map_eq_some_iff]
  exact ⟨fun ⟨m, h⟩ => ⟨_, m, h, rfl⟩, fun ⟨_, m, h, _⟩ => ⟨m, h⟩⟩

end Verif
