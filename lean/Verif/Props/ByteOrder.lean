/- The order in which files and members are sorted. -/
import Verif.Base.Sort
import Verif.Spec.ByteOrder

namespace Verif
open Spec

theorem before_cons (c : UInt8) {a b : Bytes} (h : ByteBefore a b) : ByteBefore (c :: a) (c :: b) := by
  cases h with
  | shorter x t h => exact .shorter (c :: a) t h
  | smaller x s t p q h => exact .smaller (c :: x) s t p q h

theorem lt_append (x a b : Bytes) : Bytes.lt (x ++ a) (x ++ b) = Bytes.lt a b := by
  induction x with
  | nil => rfl
  | cons c x ih => simp [Bytes.lt, ih]

theorem lt_iff_before (a b : Bytes) : Bytes.lt a b = true ↔ ByteBefore a b := by
  constructor
  · induction a generalizing b with
    | nil =>
      cases b with
      | nil => intro h; cases h
      | cons d b => intro _; exact .shorter [] (d :: b) (by simp)
    | cons c a ih =>
      cases b with
      | nil => intro h; cases h
      | cons d b =>
        intro h
        simp only [Bytes.lt] at h
        split at h
        · rename_i hlt
          exact .smaller [] a b c d (UInt8.lt_iff_toNat_lt.1 hlt)
        · split at h
          · rename_i he
            subst he
            exact before_cons c (ih b h)
          · cases h
  · intro h
    cases h with
    | shorter _ t h =>
      have := lt_append a [] t
      rw [List.append_nil] at this
      rw [this]
      cases t with
      | nil => exact absurd rfl h
      | cons => rfl
    | smaller x s t c d h =>
      rw [lt_append]
      simp [Bytes.lt, UInt8.lt_iff_toNat_lt, h]

/-- C11, C06, C21: the order by which files, attachments and the members of configurations are sorted is the byte order. -/
theorem c11_byte_order (a b : Bytes) : (Bytes.lt a b = true ↔ ByteBefore a b) ∧ (bytesLe a b = true ↔ a = b ∨ ByteBefore a b) := by
  refine ⟨lt_iff_before a b, ?_⟩
  rw [← lt_iff_before]
  unfold bytesLe
  constructor
  · intro h
    rcases Bytes.lt_trichotomy a b with h1 | h1 | h1
    · exact .inr h1
    · exact .inl h1
    · rw [h1] at h; cases h
  · rintro (rfl | h)
    · simp [Bytes.lt_irrefl]
    · simp [Bytes.lt_asymm h]

example : ByteBefore b!"10-a.conf" b!"9-a.conf" ∧ ByteBefore b!"a" b!"a.conf" ∧ ¬ ByteBefore b!"b" b!"B" := by
  simp only [← lt_iff_before]
  decide

end Verif
