/- C84: texts of characters, and what is replaced in texts that are not. -/
import Verif.Spec.Repair
import Verif.Json.GrammarStr
import Verif.Json.Clean

namespace Verif
open Spec

theorem isUtf8_char {p t : Bytes} (hp : runeLen (p ++ t) = p.length) (hne : p ≠ []) : isUtf8 (p ++ t) = isUtf8 t := by
  match p, hne with
  | b :: p, _ =>
  have : isUtf8 ((b :: p) ++ t) = isUtf8F ((p ++ t).length + 1) (b :: (p ++ t)) := rfl
  rw [this, isUtf8F]
  split
  · rename_i h0
    rw [List.cons_append, h0] at hp
    simp at hp
  · rename_i k _
    rw [List.cons_append] at hp
    rw [hp]
    have e : b :: (p ++ t) = (b :: p) ++ t := rfl
    rw [e, List.drop_left]
    exact isUtf8F_mono _ _ _ (by simp) (Nat.le_refl _)

theorem characters_of_utf8 (t : Bytes) (h : isUtf8 t = true) : Characters t := by
  suffices ∀ n (t : Bytes), t.length ≤ n → isUtf8 t = true → Characters t from this _ _ (Nat.le_refl _) h
  intro n
  induction n with
  | zero =>
    intro t h _
    have : t = [] := List.length_eq_zero_iff.1 (by omega)
    subst this
    exact .nil
  | succ n ih =>
    intro t h hu
    match t, h, hu with
    | [], h, _ => exact .nil
    | c :: t, h, hu =>
    simp only [List.length_cons] at h
    by_cases hr : runeLen (c :: t) = 0
    · have : isUtf8 (c :: t) = isUtf8F (t.length + 1) (c :: t) := rfl
      rw [this, isUtf8F, hr] at hu
      simp at hu
    · obtain ⟨v, hv⟩ := utf8_of_runeLen hr
      have hl := runeLen_of_utf8 hv ((c :: t).drop (runeLen (c :: t)))
      have e := List.take_append_drop (runeLen (c :: t)) (c :: t)
      have hu' : isUtf8 ((c :: t).take (runeLen (c :: t)) ++ (c :: t).drop (runeLen (c :: t))) = true := by rw [e]; exact hu
      rw [isUtf8_char hl.1 hl.2] at hu'
      have := Characters.char hv (ih _ (by simp only [List.length_drop, List.length_cons]; omega) hu')
      rw [e] at this
      exact this

/-- C84: the texts the model takes for UTF-8 are the sequences of characters. -/
theorem c84_characters (t : Bytes) : isUtf8 t = true ↔ Characters t := by
  refine ⟨characters_of_utf8 t, fun h => ?_⟩
  induction h with
  | nil => rfl
  | char hb _ ih =>
    have := runeLen_of_utf8 hb
    rw [isUtf8_char (this _).1 (this []).2, ih]

mutual
theorem repairedDoc_clean : ∀ j : Json, RepairedDoc (.value j) (.value j.clean)
  | .null => .null
  | .bool b => .bool b
  | .num t => .num t
  | .str s => .str (repaired_sanitize s)
  | .arr l => .arr (repairedDoc_cleanList l)
  | .obj ms => .obj (repairedDoc_cleanMembers ms)
theorem repairedDoc_cleanList : ∀ l : List Json, RepairedDoc (.elements l) (.elements (Json.cleanList l))
  | [] => .noElements
  | j :: l => .element (repairedDoc_clean j) (repairedDoc_cleanList l)
theorem repairedDoc_cleanMembers : ∀ ms : List (Bytes × Json), RepairedDoc (.members ms) (.members (Json.cleanMembers ms))
  | [] => .noMembers
  | (k, j) :: ms => .member (repaired_sanitize k) (repairedDoc_clean j) (repairedDoc_cleanMembers ms)
end

/-- Proof device: models no code. -/
def Spec.Pack.clean : Pack → Pack
  | .value j => .value j.clean
  | .elements l => .elements (Json.cleanList l)
  | .members ms => .members (Json.cleanMembers ms)

theorem repairedDoc_eq {p q : Pack} (h : RepairedDoc p q) : q = p.clean := by
  induction h with
  | null | bool | num | noElements | noMembers => rfl
  | str h => rw [repaired_eq h]; rfl
  | arr h ih => simp only [Pack.clean, Pack.elements.injEq] at ih; simp only [Pack.clean, Json.clean, ih]
  | obj h ih => simp only [Pack.clean, Pack.members.injEq] at ih; simp only [Pack.clean, Json.clean, ih]
  | element h t ih1 ih2 =>
    simp only [Pack.clean, Pack.elements.injEq, Pack.value.injEq] at ih1 ih2
    simp only [Pack.clean, Json.cleanList, ih1, ih2]
  | member hk h t ih1 ih2 =>
    simp only [Pack.clean, Pack.members.injEq, Pack.value.injEq] at ih1 ih2
    simp only [Pack.clean, Json.cleanMembers, ih1, ih2, repaired_eq hk]

/-- C84: a text that is written has every byte replaced that does not belong to a character, and nothing else; so has every text and every name
in a document. -/
theorem c84_repair (s s' : Bytes) (j j' : Json) :
    (sanitize s = s' ↔ Repaired s s') ∧ (j.clean = j' ↔ RepairedDoc (.value j) (.value j')) := by
  refine ⟨by rw [repaired_iff, eq_comm], fun h => h ▸ repairedDoc_clean j, fun h => ?_⟩
  have := repairedDoc_eq h
  simp only [Pack.clean, Pack.value.injEq] at this
  exact this.symm

example : Characters b!"cn\xc3\xad" := (c84_characters _).1 (by decide +kernel)
example : ¬ Characters [0xC3, 0x28] := fun h => absurd ((c84_characters _).2 h) (by decide +kernel)
example : RepairedDoc (.value (.obj [([0x80, 65], .arr [.str [0xFF], .num b!"1"])]))
    (.value (.obj [([0xEF, 0xBF, 0xBD, 65], .arr [.str [0xEF, 0xBF, 0xBD], .num b!"1"])])) := ((c84_repair [] [] _ _).2).1 (by decide +kernel)

end Verif
