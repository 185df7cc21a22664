/- Numbers written to a base: `digitsVal` against Verif.Spec.Places. -/
import Verif.Base.BytesLemmas
import Verif.Spec.Digits

namespace Verif
open Spec

theorem list_snoc (l : Bytes) : l = [] ∨ ∃ t c, l = t ++ [c] := by
  cases h : l.reverse with
  | nil => exact .inl (List.reverse_eq_nil_iff.1 h)
  | cons c t =>
    right
    refine ⟨t.reverse, c, ?_⟩
    have := congrArg List.reverse h
    rw [List.reverse_reverse] at this
    rw [this, List.reverse_cons]

theorem places_iff {D : UInt8 → Nat → Prop} {base : Nat} {val : UInt8 → Nat} (ok : UInt8 → Bool) (hD : ∀ c v, D c v ↔ ok c = true ∧ v = val c) (t : Bytes) (n : Nat) :
    Places D base t n ↔ t ≠ [] ∧ (∀ c ∈ t, ok c = true) ∧ n = t.foldl (fun a c => a * base + val c) 0 := by
  constructor
  · intro h
    induction h with
    | @digit c v h =>
      obtain ⟨h1, rfl⟩ := (hD c v).1 h
      refine ⟨by simp, ?_, by simp⟩
      intro x hx
      rwa [List.mem_singleton.1 hx]
    | @more t n c v _ h ih =>
      obtain ⟨h1, rfl⟩ := (hD c v).1 h
      obtain ⟨-, ih2, rfl⟩ := ih
      refine ⟨by simp, ?_, by simp [List.foldl_append]⟩
      intro x hx
      rcases List.mem_append.1 hx with hx | hx
      · exact ih2 x hx
      · rwa [List.mem_singleton.1 hx]
  · rintro ⟨h1, h2, rfl⟩
    suffices ∀ (k : Nat) (t : Bytes), t.length ≤ k → t ≠ [] → (∀ c ∈ t, ok c = true) → Places D base t (t.foldl (fun a c => a * base + val c) 0) from
      this _ t (Nat.le_refl _) h1 h2
    intro k
    induction k with
    | zero => intro t hk hne; exact absurd (List.length_eq_zero_iff.1 (by omega)) hne
    | succ k ih =>
      intro t hk hne hok
      rcases list_snoc t with rfl | ⟨s, c, rfl⟩
      · exact absurd rfl hne
      have hc : D c (val c) := (hD c _).2 ⟨hok c (by simp), rfl⟩
      rw [List.foldl_append]
      cases s with
      | nil => simpa using Places.digit hc
      | cons x s =>
        refine .more (ih (x :: s) ?_ (by simp) ?_) hc
        · simp only [List.length_append, List.length_cons, List.length_nil] at hk ⊢
          omega
        · intro y hy
          exact hok y (List.mem_append_left _ hy)

theorem decimal_iff {t : Bytes} {n : Nat} : Places DecDigit 10 t n ↔ t ≠ [] ∧ (∀ c ∈ t, isDigit c = true) ∧ n = digitsVal t := by
  refine places_iff (val := fun c => c.toNat - 48) isDigit (fun c v => ?_) t n
  unfold DecDigit isDigit
  simp [UInt8.le_iff_toNat_le]
  omega

end Verif
