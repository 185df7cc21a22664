/- Lower case against Verif.Spec.AnyCase. -/
import Verif.Base.BytesLemmas
import Verif.Spec.AnyCase

namespace Verif
open Spec

theorem lowerByte_iff (c d : UInt8) (hc : isUpper c = false) :
    lowerByte d = c ↔ d = c ∨ ((97 ≤ c.toNat ∧ c.toNat ≤ 122) ∧ d.toNat + 32 = c.toNat) := by
  unfold lowerByte
  have hd : d.toNat < 256 := d.toNat_lt
  cases hu : isUpper d with
  | true =>
    have hr : 65 ≤ d.toNat ∧ d.toNat ≤ 90 := by
      simp only [isUpper, Bool.and_eq_true, decide_eq_true_eq, UInt8.le_iff_toNat_le] at hu
      exact hu
    have h32 : (d + 32).toNat = d.toNat + 32 := by
      rw [UInt8.toNat_add]
      show (d.toNat + 32) % 256 = _
      omega
    simp only [if_true]
    constructor
    · rintro rfl
      right
      rw [h32]
      omega
    · rintro (rfl | ⟨-, h⟩)
      · rw [hu] at hc; cases hc
      · exact UInt8.toNat_inj.1 (by rw [h32]; exact h)
  | false =>
    simp only [Bool.false_eq_true, if_false]
    constructor
    · exact .inl
    · rintro (rfl | ⟨h1, h2⟩)
      · rfl
      · exfalso
        simp only [isUpper, Bool.and_eq_false_iff, decide_eq_false_iff_not, UInt8.le_iff_toNat_le] at hu
        rcases hu with hu | hu
        · exact hu (by show 65 ≤ _; omega)
        · exact hu (by show _ ≤ 90; omega)

theorem toLower_iff {w : Bytes} (hw : ∀ c ∈ w, isUpper c = false) (t : Bytes) : toLower t = w ↔ AnyCase w t := by
  induction w generalizing t with
  | nil =>
    constructor
    · intro h
      rw [toLower, List.map_eq_nil_iff] at h
      subst h
      exact .nil
    · intro h
      cases h
      rfl
  | cons c w ih =>
    have hw' := fun x hx => hw x (List.mem_cons_of_mem _ hx)
    cases t with
    | nil => exact ⟨fun h => (by cases h), fun h => (by cases h)⟩
    | cons d t =>
      rw [toLower, List.map_cons, List.cons.injEq, lowerByte_iff _ _ (hw c (by simp))]
      change _ ∧ toLower t = w ↔ _
      rw [ih hw']
      constructor
      · rintro ⟨rfl | ⟨h1, h2⟩, h⟩
        · exact .same _ h
        · exact .upper h1 h2 h
      · intro h
        cases h with
        | same _ h => exact ⟨.inl rfl, h⟩
        | upper h1 h2 h => exact ⟨.inr ⟨h1, h2⟩, h⟩

end Verif
