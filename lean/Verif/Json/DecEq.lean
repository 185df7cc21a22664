/- Decidable equality of documents. -/
import Verif.Json.Json

namespace Verif

mutual
/-- Proof device: models no code. (Decidable equality of documents.) -/
def Json.beq : Json → Json → Bool
  | .null, .null => true
  | .bool a, .bool b => a == b
  | .num a, .num b => a == b
  | .str a, .str b => a == b
  | .arr a, .arr b => Json.beqL a b
  | .obj a, .obj b => Json.beqM a b
  | _, _ => false
/-- Proof device: models no code. (Decidable equality of documents.) -/
def Json.beqL : List Json → List Json → Bool
  | [], [] => true
  | a :: l, b :: l' => a.beq b && Json.beqL l l'
  | _, _ => false
/-- Proof device: models no code. (Decidable equality of documents.) -/
def Json.beqM : List (Bytes × Json) → List (Bytes × Json) → Bool
  | [], [] => true
  | (k, a) :: l, (k', b) :: l' => k == k' && a.beq b && Json.beqM l l'
  | _, _ => false
end

mutual
theorem Json.beq_iff (a b : Json) : a.beq b = true ↔ a = b := by
  cases a <;> cases b <;> simp only [Json.beq, reduceCtorEq, Bool.false_eq_true, beq_iff_eq, Json.bool.injEq,
    Json.num.injEq, Json.str.injEq, Json.arr.injEq, Json.obj.injEq]
  · exact Json.beqL_iff _ _
  · exact Json.beqM_iff _ _
theorem Json.beqL_iff (a b : List Json) : Json.beqL a b = true ↔ a = b := by
  cases a <;> cases b <;> simp only [Json.beqL, reduceCtorEq, Bool.false_eq_true, Bool.and_eq_true, List.cons.injEq]
  rw [Json.beq_iff, Json.beqL_iff]
theorem Json.beqM_iff (a b : List (Bytes × Json)) : Json.beqM a b = true ↔ a = b := by
  cases a with
  | nil => cases b <;> simp [Json.beqM]
  | cons x l =>
    obtain ⟨k, v⟩ := x
    cases b with
    | nil => simp [Json.beqM]
    | cons y l' =>
      obtain ⟨k', v'⟩ := y
      simp only [Json.beqM, Bool.and_eq_true, beq_iff_eq, List.cons.injEq, Prod.mk.injEq]
      rw [Json.beq_iff, Json.beqM_iff]
end

instance : DecidableEq Json := fun a b => decidable_of_iff _ (Json.beq_iff a b)

end Verif
