/- Strings are read by the grammar of JSON (used in C84). -/
import Verif.Json.RoundTrip
import Verif.Json.Prefix
import Verif.Spec.Grammar

namespace Verif
open Spec

/-! ### UTF-8 -/

theorem u8_toNat_inj {a b : UInt8} (h : a.toNat = b.toNat) : a = b := UInt8.toNat_inj.1 h

theorem u8_ofNat {n : Nat} (h : n < 256) : (UInt8.ofNat n).toNat = n := by
  rw [UInt8.toNat_ofNat']
  omega

theorem map_toNat_inj {a b : Bytes} (h : a.map UInt8.toNat = b.map UInt8.toNat) : a = b := by
  induction a generalizing b with
  | nil => cases b with
    | nil => rfl
    | cons x b => simp at h
  | cons x a ih => cases b with
    | nil => simp at h
    | cons y b =>
      simp only [List.map_cons, List.cons.injEq] at h
      rw [u8_toNat_inj h.1, ih h.2]

theorem utf8_encode {v : Nat} (h : v < 0x110000) (h1 : ¬ High v) (h2 : ¬ Low v) : Utf8 v (encodeRune v) := by
  unfold Utf8 encodeRune
  unfold High Low at *
  split
  · exact .inl ⟨by assumption, by simp only [List.map_cons, List.map_nil]; rw [u8_ofNat (by omega)]⟩
  split
  · refine .inr (.inl ⟨by omega, by assumption, ?_⟩)
    simp only [List.map_cons, List.map_nil]
    rw [u8_ofNat (by omega), u8_ofNat (by omega)]
  split
  · refine .inr (.inr (.inl ⟨by omega, by assumption, h1, h2, ?_⟩))
    simp only [List.map_cons, List.map_nil]
    rw [u8_ofNat (by omega), u8_ofNat (by omega), u8_ofNat (by omega)]
  · refine .inr (.inr (.inr ⟨by omega, h, ?_⟩))
    simp only [List.map_cons, List.map_nil]
    rw [u8_ofNat (by omega), u8_ofNat (by omega), u8_ofNat (by omega), u8_ofNat (by omega)]

theorem utf8_scalar {v : Nat} {bs : Bytes} (h : Utf8 v bs) : v < 0x110000 ∧ ¬ High v ∧ ¬ Low v := by
  unfold Utf8 at h
  unfold High Low at *
  omega

theorem utf8_unique {v : Nat} {a b : Bytes} (h : Utf8 v a) (h' : Utf8 v b) : a = b := by
  apply map_toNat_inj
  rcases h with ⟨h0, h⟩ | ⟨h0, h1, h⟩ | ⟨h0, h1, -, -, h⟩ | ⟨h0, h1, h⟩ <;>
    rcases h' with ⟨h0', h'⟩ | ⟨h0', h1', h'⟩ | ⟨h0', h1', -, -, h'⟩ | ⟨h0', h1', h'⟩ <;>
    first | omega | rw [h, h']

theorem utf8_eq {v : Nat} {bs : Bytes} (h : Utf8 v bs) : bs = encodeRune v :=
  have ⟨h1, h2, h3⟩ := utf8_scalar h
  utf8_unique h (utf8_encode h1 h2 h3)

theorem map_one {bs : Bytes} {a : Nat} (h : bs.map UInt8.toNat = [a]) : ∃ x, bs = [x] ∧ x.toNat = a := by
  match bs, h with
  | [x], h => simp only [List.map_cons, List.map_nil, List.cons.injEq, and_true] at h; exact ⟨x, rfl, h⟩
  | [], h => simp at h
  | _ :: _ :: _, h => simp at h

theorem map_cons_toNat {bs : Bytes} {a : Nat} {l : List Nat} (h : bs.map UInt8.toNat = a :: l) :
    ∃ x r, bs = x :: r ∧ x.toNat = a ∧ r.map UInt8.toNat = l := by
  match bs, h with
  | x :: r, h => simp only [List.map_cons, List.cons.injEq] at h; exact ⟨x, r, rfl, h⟩
  | [], h => simp at h

theorem runeLen_of_utf8 {v : Nat} {bs : Bytes} (h : Utf8 v bs) (t : Bytes) : runeLen (bs ++ t) = bs.length ∧ bs ≠ [] := by
  rcases h with ⟨h0, h⟩ | ⟨h0, h1, h⟩ | ⟨h0, h1, hh, hl, h⟩ | ⟨h0, h1, h⟩
  · obtain ⟨x, rfl, hx⟩ := map_one h
    refine ⟨?_, by simp⟩
    exact runeLen_pos_of_ascii (by rw [UInt8.lt_iff_toNat_lt, hx]; exact h0)
  · obtain ⟨x, r, rfl, hx, h⟩ := map_cons_toNat h
    obtain ⟨y, rfl, hy⟩ := map_one h
    refine ⟨?_, by simp⟩
    have a1 : ¬ x < 0x80 := by rw [UInt8.lt_iff_toNat_lt, hx]; simp; omega
    have a2 : 0xC2 ≤ x := by rw [UInt8.le_iff_toNat_le, hx]; simp; omega
    have a3 : x ≤ 0xDF := by rw [UInt8.le_iff_toNat_le, hx]; simp; omega
    have a4 : 0x80 ≤ y := by rw [UInt8.le_iff_toNat_le, hy]; simp
    have a5 : y ≤ 0xBF := by rw [UInt8.le_iff_toNat_le, hy]; simp; omega
    simp [runeLen, isCont, a1, a2, a3, a4, a5]
  · obtain ⟨x, r, rfl, hx, h⟩ := map_cons_toNat h
    obtain ⟨y, r, rfl, hy, h⟩ := map_cons_toNat h
    obtain ⟨z, rfl, hz⟩ := map_one h
    refine ⟨?_, by simp⟩
    unfold High Low at *
    have a1 : ¬ x < 0x80 := by rw [UInt8.lt_iff_toNat_lt, hx]; simp; omega
    have a2 : 0xE0 ≤ x := by rw [UInt8.le_iff_toNat_le, hx]; simp
    have a3 : x ≤ 0xEF := by rw [UInt8.le_iff_toNat_le, hx]; simp; omega
    have a3' : ¬ x ≤ 0xDF := by rw [UInt8.le_iff_toNat_le, hx]; simp; omega
    have a4 : 0x80 ≤ y := by rw [UInt8.le_iff_toNat_le, hy]; simp
    have a5 : y ≤ 0xBF := by rw [UInt8.le_iff_toNat_le, hy]; simp; omega
    have a6 : 0x80 ≤ z := by rw [UInt8.le_iff_toNat_le, hz]; simp
    have a7 : z ≤ 0xBF := by rw [UInt8.le_iff_toNat_le, hz]; simp; omega
    have a8 : x = 0xE0 → ¬ y < 0xA0 := by
      intro e; rw [e] at hx; rw [UInt8.lt_iff_toNat_lt, hy]; simp at hx ⊢; omega
    have a9 : x = 0xED → ¬ 0xA0 ≤ y := by
      intro e; rw [e] at hx; rw [UInt8.le_iff_toNat_le, hy]; simp at hx ⊢; omega
    simp [runeLen, isCont, a1, a2, a3, a3', a4, a5, a6, a7]
    exact ⟨Decidable.imp_iff_not_or.1 (by simpa using a8), by simpa using a9⟩
  · obtain ⟨x, r, rfl, hx, h⟩ := map_cons_toNat h
    obtain ⟨y, r, rfl, hy, h⟩ := map_cons_toNat h
    obtain ⟨z, r, rfl, hz, h⟩ := map_cons_toNat h
    obtain ⟨w, rfl, hw⟩ := map_one h
    refine ⟨?_, by simp⟩
    have a1 : ¬ x < 0x80 := by rw [UInt8.lt_iff_toNat_lt, hx]; simp; omega
    have a2 : 0xF0 ≤ x := by rw [UInt8.le_iff_toNat_le, hx]; simp
    have a3 : x ≤ 0xF4 := by rw [UInt8.le_iff_toNat_le, hx]; simp; omega
    have a3' : ¬ x ≤ 0xDF := by rw [UInt8.le_iff_toNat_le, hx]; simp; omega
    have a3'' : ¬ x ≤ 0xEF := by rw [UInt8.le_iff_toNat_le, hx]; simp; omega
    have a4 : 0x80 ≤ y := by rw [UInt8.le_iff_toNat_le, hy]; simp
    have a5 : y ≤ 0xBF := by rw [UInt8.le_iff_toNat_le, hy]; simp; omega
    have a6 : 0x80 ≤ z := by rw [UInt8.le_iff_toNat_le, hz]; simp
    have a7 : z ≤ 0xBF := by rw [UInt8.le_iff_toNat_le, hz]; simp; omega
    have b6 : 0x80 ≤ w := by rw [UInt8.le_iff_toNat_le, hw]; simp
    have b7 : w ≤ 0xBF := by rw [UInt8.le_iff_toNat_le, hw]; simp; omega
    have a8 : x = 0xF0 → ¬ y < 0x90 := by
      intro e; rw [e] at hx; rw [UInt8.lt_iff_toNat_lt, hy]; simp at hx ⊢; omega
    have a9 : x = 0xF4 → ¬ 0x90 ≤ y := by
      intro e; rw [e] at hx; rw [UInt8.le_iff_toNat_le, hy]; simp at hx ⊢; omega
    simp [runeLen, isCont, a1, a2, a3, a3', a3'', a4, a5, a6, a7, b6, b7]
    exact ⟨Decidable.imp_iff_not_or.1 (by simpa using a8), by simpa using a9⟩

theorem utf8_of_runeLen {s : Bytes} (h : runeLen s ≠ 0) : ∃ v, Utf8 v (s.take (runeLen s)) := by
  match s, h with
  | [], h => exact absurd rfl h
  | x :: r, h =>
  by_cases a1 : x < 0x80
  · rw [runeLen_pos_of_ascii a1]
    refine ⟨x.toNat, .inl ⟨?_, by simp⟩⟩
    rw [UInt8.lt_iff_toNat_lt] at a1
    exact a1
  have b1 : ¬ x.toNat < 128 := by rw [UInt8.lt_iff_toNat_lt] at a1; exact a1
  match r, h with
  | [], h => exact absurd (by simp [runeLen, a1]) h
  | y :: r, h =>
  by_cases a2 : (0xC2 ≤ x && x ≤ 0xDF) = true
  · by_cases a3 : isCont y = true
    · have e : runeLen (x :: y :: r) = 2 := by simp only [runeLen, if_neg a1, if_pos a2, if_pos a3]
      rw [e]
      simp only [isCont, Bool.and_eq_true, decide_eq_true_eq, UInt8.le_iff_toNat_le] at a2 a3
      simp at a2 a3
      refine ⟨(x.toNat - 0xC0) * 64 + (y.toNat - 0x80), .inr (.inl ⟨by omega, by omega, ?_⟩)⟩
      simp
      omega
    · exact absurd (by simp only [runeLen, if_neg a1, if_pos a2, if_neg a3]) h
  match r, h with
  | [], h => exact absurd (by simp only [runeLen, if_neg a1, if_neg a2]) h
  | z :: r, h =>
  by_cases a4 : (0xE0 ≤ x && x ≤ 0xEF) = true
  · by_cases a3 : (isCont y && isCont z && !(x == 0xE0 && y < 0xA0) && !(x == 0xED && 0xA0 ≤ y)) = true
    · have e : runeLen (x :: y :: z :: r) = 3 := by simp only [runeLen, if_neg a1, if_neg a2, if_pos a4, if_pos a3]
      rw [e]
      simp only [isCont, Bool.and_eq_true, Bool.not_eq_true', decide_eq_true_eq, UInt8.le_iff_toNat_le, UInt8.lt_iff_toNat_lt, Bool.and_eq_false_iff,
        beq_eq_false_iff_ne, ne_eq, decide_eq_false_iff_not, ← UInt8.toNat_inj] at a4 a3
      simp at a4 a3
      refine ⟨(x.toNat - 0xE0) * 4096 + (y.toNat - 0x80) * 64 + (z.toNat - 0x80), .inr (.inr (.inl ⟨by omega, by omega, ?_, ?_, ?_⟩))⟩
      · unfold High; omega
      · unfold Low; omega
      · simp
        omega
    · exact absurd (by simp only [runeLen, if_neg a1, if_neg a2, if_pos a4, if_neg a3]) h
  match r, h with
  | [], h => exact absurd (by simp only [runeLen, if_neg a1, if_neg a2, if_neg a4]) h
  | w :: r, h =>
  by_cases a5 : (0xF0 ≤ x && x ≤ 0xF4) = true
  · by_cases a3 : (isCont y && isCont z && isCont w && !(x == 0xF0 && y < 0x90) && !(x == 0xF4 && 0x90 ≤ y)) = true
    · have e : runeLen (x :: y :: z :: w :: r) = 4 := by
        simp only [runeLen, if_neg a1, if_neg a2, if_neg a4, if_pos a5, if_pos a3]
      rw [e]
      simp only [isCont, Bool.and_eq_true, Bool.not_eq_true', decide_eq_true_eq, UInt8.le_iff_toNat_le, UInt8.lt_iff_toNat_lt, Bool.and_eq_false_iff,
        beq_eq_false_iff_ne, ne_eq, decide_eq_false_iff_not, ← UInt8.toNat_inj] at a5 a3
      simp at a5 a3
      refine ⟨(x.toNat - 0xF0) * 262144 + (y.toNat - 0x80) * 4096 + (z.toNat - 0x80) * 64 + (w.toNat - 0x80),
        .inr (.inr (.inr ⟨by omega, by omega, ?_⟩))⟩
      simp
      omega
    · exact absurd (by simp only [runeLen, if_neg a1, if_neg a2, if_neg a4, if_pos a5, if_neg a3]) h
  · exact absurd (by simp only [runeLen, if_neg a1, if_neg a2, if_neg a4, if_neg a5]) h

theorem sanitizeF_enough (n : Nat) (s : Bytes) (h : s.length ≤ n) : sanitizeF n s = sanitize s := by
  unfold sanitize
  suffices ∀ n m (s : Bytes), s.length ≤ n → s.length ≤ m → sanitizeF n s = sanitizeF m s from this _ _ _ h (Nat.le_refl _)
  intro n
  induction n with
  | zero =>
    intro m s h h'
    have : s = [] := List.length_eq_zero_iff.1 (by omega)
    subst this
    cases m <;> rfl
  | succ n ih =>
    intro m s h h'
    match s, m, h, h' with
    | [], m, h, h' => cases m <;> rfl
    | b :: r, 0, h, h' => simp at h'
    | b :: r, m + 1, h, h' =>
      simp only [List.length_cons] at h h'
      simp only [sanitizeF]
      split
      · rw [ih m r (by omega) (by omega)]
      · rename_i k hk
        have hk' : runeLen (b :: r) ≠ 0 := hk
        rw [ih m _ (by simp only [List.length_drop, List.length_cons]; omega) (by simp only [List.length_drop, List.length_cons]; omega)]

theorem sanitize_char {p t : Bytes} (hp : runeLen (p ++ t) = p.length) (hne : p ≠ []) : sanitize (p ++ t) = p ++ sanitize t := by
  match p, hne with
  | b :: p, _ =>
  have : sanitize ((b :: p) ++ t) = sanitizeF ((p ++ t).length + 1) (b :: (p ++ t)) := rfl
  rw [this, sanitizeF]
  split
  · rename_i h0
    rw [List.cons_append, h0] at hp
    simp at hp
  · rename_i k _
    rw [List.cons_append] at hp
    rw [hp]
    have e : b :: (p ++ t) = (b :: p) ++ t := rfl
    rw [e, List.take_left, List.drop_left, sanitizeF_enough _ _ (by simp)]

theorem sanitize_bad {c : UInt8} {t : Bytes} (h : runeLen (c :: t) = 0) : sanitize (c :: t) = [0xEF, 0xBF, 0xBD] ++ sanitize t := by
  have : sanitize (c :: t) = sanitizeF (t.length + 1) (c :: t) := rfl
  rw [this, sanitizeF, h]
  simp only
  rw [sanitizeF_enough _ _ (by simp)]
  rfl

theorem repaired_sanitize (t : Bytes) : Repaired t (sanitize t) := by
  suffices ∀ n (t : Bytes), t.length ≤ n → Repaired t (sanitize t) from this _ _ (Nat.le_refl _)
  intro n
  induction n with
  | zero =>
    intro t h
    have : t = [] := List.length_eq_zero_iff.1 (by omega)
    subst this
    exact .nil
  | succ n ih =>
    intro t h
    match t, h with
    | [], h => exact .nil
    | c :: t, h =>
    simp only [List.length_cons] at h
    by_cases hr : runeLen (c :: t) = 0
    · rw [sanitize_bad hr]
      refine .bad ?_ (ih t (by omega))
      intro v bs t' e hb
      have := runeLen_of_utf8 hb t'
      rw [← e, hr] at this
      exact this.2 (List.length_eq_zero_iff.1 this.1.symm)
    · obtain ⟨v, hv⟩ := utf8_of_runeLen hr
      have hl := runeLen_of_utf8 hv ((c :: t).drop (runeLen (c :: t)))
      rw [← List.take_append_drop (runeLen (c :: t)) (c :: t)]
      rw [sanitize_char hl.1 hl.2]
      refine .char hv (ih _ ?_)
      simp only [List.length_drop, List.length_cons]
      omega

theorem repaired_eq {t s : Bytes} (h : Repaired t s) : s = sanitize t := by
  induction h with
  | nil => rfl
  | char hb _ ih =>
    have := runeLen_of_utf8 hb
    rw [sanitize_char (this _).1 (this []).2, ih]
  | @bad c t s hno _ ih =>
    rw [ih]
    refine (sanitize_bad ?_).symm
    by_cases hr : runeLen (c :: t) = 0
    · exact hr
    · obtain ⟨v, hv⟩ := utf8_of_runeLen hr
      exact absurd hv (hno v _ _ (List.take_append_drop (runeLen (c :: t)) (c :: t)).symm)

theorem repaired_iff {t s : Bytes} : Repaired t s ↔ s = sanitize t :=
  ⟨repaired_eq, fun h => h ▸ repaired_sanitize t⟩

/-! ### escapes -/

theorem hexVal_iff {c : UInt8} {v : Nat} : hexVal c = some v ↔ HexDigit c v := by
  unfold hexVal HexDigit
  have e : isDigit c = true ↔ 48 ≤ c.toNat ∧ c.toNat ≤ 57 := by unfold isDigit; simp [UInt8.le_iff_toNat_le]
  by_cases h1 : isDigit c = true
  · have := e.1 h1
    simp only [h1, if_true, Option.some.injEq]
    omega
  have n1 : ¬ (48 ≤ c.toNat ∧ c.toNat ≤ 57) := fun h => h1 (e.2 h)
  rw [if_neg h1]
  by_cases h2 : (97 ≤ c && c ≤ 102) = true
  · have h2' : 97 ≤ c.toNat ∧ c.toNat ≤ 102 := by simpa [UInt8.le_iff_toNat_le] using h2
    rw [if_pos h2]
    simp only [Option.some.injEq]
    omega
  have n2 : ¬ (97 ≤ c.toNat ∧ c.toNat ≤ 102) := fun h => h2 (by simpa [UInt8.le_iff_toNat_le] using h)
  rw [if_neg h2]
  by_cases h3 : (65 ≤ c && c ≤ 70) = true
  · have h3' : 65 ≤ c.toNat ∧ c.toNat ≤ 70 := by simpa [UInt8.le_iff_toNat_le] using h3
    rw [if_pos h3]
    simp only [Option.some.injEq]
    omega
  have n3 : ¬ (65 ≤ c.toNat ∧ c.toNat ≤ 70) := fun h => h3 (by simpa [UInt8.le_iff_toNat_le] using h)
  rw [if_neg h3]
  simp only [reduceCtorEq, false_iff]
  omega

theorem getu4_sound {r r1 : Bytes} {v : Nat} (h : getu4 r = some (v, r1)) : ∃ u, HexEscape (92 :: 117 :: u) v ∧ r = u ++ r1 := by
  match r, h with
  | a :: b :: c :: d :: r, h =>
    simp only [getu4] at h
    split at h
    · rename_i w x y z ha hb hc hd
      simp only [Option.some.injEq, Prod.mk.injEq] at h
      obtain ⟨rfl, rfl⟩ := h
      exact ⟨[a, b, c, d], ⟨a, b, c, d, w, x, y, z, rfl, hexVal_iff.1 ha, hexVal_iff.1 hb, hexVal_iff.1 hc, hexVal_iff.1 hd, by omega⟩, rfl⟩
    · cases h
  | [], h => cases h
  | [_], h => cases h
  | [_, _], h => cases h
  | [_, _, _], h => cases h

theorem getu4_complete {u : Bytes} {v : Nat} (h : HexEscape u v) (t : Bytes) :
    ∃ x, u = 92 :: 117 :: x ∧ getu4 (x ++ t) = some (v, t) := by
  obtain ⟨a, b, c, d, w, x, y, z, rfl, ha, hb, hc, hd, rfl⟩ := h
  refine ⟨_, rfl, ?_⟩
  simp only [List.cons_append, List.nil_append, getu4, hexVal_iff.2 ha, hexVal_iff.2 hb, hexVal_iff.2 hc, hexVal_iff.2 hd, Option.some.injEq, Prod.mk.injEq,
    and_true]
  omega

theorem hexEscape_lt {u : Bytes} {v : Nat} (h : HexEscape u v) : v < 0x10000 := by
  obtain ⟨a, b, c, d, w, x, y, z, rfl, ha, hb, hc, hd, rfl⟩ := h
  unfold HexDigit at *
  omega

/-- Proof device: models no code. What follows a `\u` escape starts with the second half of a surrogate pair. -/
def LowNext (t : Bytes) : Prop := ∃ u' t' v', t = u' ++ t' ∧ HexEscape u' v' ∧ Low v'

theorem unesc_simple {c b : UInt8} (h : (c, b) ∈ simpleEscapes) (t : Bytes) : unesc (c :: t) = some ([b], t) := by
  simp only [simpleEscapes, List.mem_cons, Prod.mk.injEq, List.not_mem_nil, or_false] at h
  rcases h with ⟨rfl, rfl⟩ | ⟨rfl, rfl⟩ | ⟨rfl, rfl⟩ | ⟨rfl, rfl⟩ | ⟨rfl, rfl⟩ | ⟨rfl, rfl⟩ | ⟨rfl, rfl⟩ | ⟨rfl, rfl⟩ <;> rfl

theorem unesc_hex {x t : Bytes} {v : Nat} (h : getu4 (x ++ t) = some (v, t)) : unesc (117 :: (x ++ t)) =
    (if 0xD800 ≤ v && v < 0xE000 then
          match (generalizing := false) t with
          | x :: y :: r2 =>
            if x = 0x5c && y = 0x75 then
              match (generalizing := false) getu4 r2 with
              | some (w, r3) =>
                if v < 0xDC00 && 0xDC00 ≤ w && w < 0xE000 then
                  some (encodeRune (0x10000 + (v - 0xD800) * 1024 + (w - 0xDC00)), r3)
                else some (replacement, t)
              | none => some (replacement, t)
            else some (replacement, t)
          | _ => some (replacement, t)
        else some (encodeRune v, t)) := by
  simp only [unesc, h]
  repeat rw [if_neg (by decide)]
  rw [if_pos trivial]
  rfl

theorem unesc_unicode {x t bs : Bytes} {v : Nat} (h : getu4 (x ++ t) = some (v, t)) (hb : Utf8 v bs) : unesc (117 :: (x ++ t)) = some (bs, t) := by
  have hs := utf8_scalar hb
  unfold High Low at hs
  have hno : (decide (0xD800 ≤ v) && decide (v < 0xE000)) = false := by
    simp only [Bool.and_eq_false_iff, decide_eq_false_iff_not]
    omega
  rw [unesc_hex h, hno, utf8_eq hb]
  rfl

theorem unesc_pair {x x' t bs : Bytes} {v v' : Nat} (h : ∀ t, getu4 (x ++ t) = some (v, t)) (h' : getu4 (x' ++ t) = some (v', t)) (hv : High v) (hv' : Low v')
    (hb : Utf8 (0x10000 + (v - 0xD800) * 0x400 + (v' - 0xDC00)) bs) : unesc (117 :: (x ++ (92 :: 117 :: (x' ++ t)))) = some (bs, t) := by
  unfold High Low at *
  have c1 : (decide (0xD800 ≤ v) && decide (v < 0xE000)) = true := by simp; omega
  have c2 : (decide (v < 0xDC00) && decide (0xDC00 ≤ v') && decide (v' < 0xE000)) = true := by simp; omega
  rw [unesc_hex (h _), if_pos c1]
  simp only [h', if_pos c2, utf8_eq hb]
  rfl

theorem unesc_half {x t : Bytes} {v : Nat} (h : getu4 (x ++ t) = some (v, t)) (hv : High v ∨ Low v) (hno : High v → ¬ LowNext t) :
    unesc (117 :: (x ++ t)) = some ([0xEF, 0xBF, 0xBD], t) := by
  have c1 : (decide (0xD800 ≤ v) && decide (v < 0xE000)) = true := by unfold High Low at hv; simp; omega
  rw [unesc_hex h, if_pos c1]
  split
  · rename_i a b r2
    split
    · rename_i hab
      have hab : a = 92 ∧ b = 117 := by simpa using hab
      obtain ⟨rfl, rfl⟩ := hab
      split
      · rename_i w r3 hg
        split
        · rename_i hc
          exfalso
          simp only [Bool.and_eq_true, decide_eq_true_eq] at hc
          obtain ⟨u, hu, rfl⟩ := getu4_sound hg
          refine hno ?_ ⟨_, _, w, rfl, hu, ?_⟩
          · unfold High Low at *; omega
          · unfold Low; omega
        · rfl
      · rfl
    · rfl
  · rfl

theorem unesc_sound {s o r : Bytes} (h : unesc s = some (o, r)) :
    (∃ c b, (c, b) ∈ simpleEscapes ∧ s = c :: r ∧ o = [b]) ∨
    (∃ u v, HexEscape (92 :: 117 :: u) v ∧ s = 117 :: (u ++ r) ∧ Utf8 v o) ∨
    (∃ u u' v v', HexEscape (92 :: 117 :: u) v ∧ HexEscape u' v' ∧ High v ∧ Low v' ∧ s = 117 :: (u ++ (u' ++ r)) ∧
      Utf8 (0x10000 + (v - 0xD800) * 0x400 + (v' - 0xDC00)) o) ∨
    (∃ u v, HexEscape (92 :: 117 :: u) v ∧ s = 117 :: (u ++ r) ∧ (High v ∨ Low v) ∧ (High v → ¬ LowNext r) ∧ o = [0xEF, 0xBF, 0xBD]) := by
  cases s with
  | nil => cases h
  | cons c s =>
  by_cases hc : c = 117
  · subst hc
    right
    cases hg : getu4 s with
    | none => rw [unesc_u hg] at h; cases h
    | some p =>
    obtain ⟨v, r1⟩ := p
    obtain ⟨u, hu, rfl⟩ := getu4_sound hg
    have hlt := hexEscape_lt hu
    by_cases hl : LowNext r1
    · by_cases hv : High v
      · obtain ⟨u', t', v', rfl, hu', hv'⟩ := hl
        obtain ⟨x', rfl, hg'⟩ := getu4_complete hu' t'
        obtain ⟨x, hx, -⟩ := getu4_complete hu []
        have : u = x := by simpa using hx
        subst this
        have hs : Utf8 _ _ := utf8_encode (v := 0x10000 + (v - 0xD800) * 0x400 + (v' - 0xDC00)) (by unfold High Low at *; omega)
          (by unfold High Low at *; omega) (by unfold High Low at *; omega)
        have := unesc_pair (x := u) (fun t => by obtain ⟨y, hy, hg⟩ := getu4_complete hu t; simp at hy; rw [hy]; exact hg) hg' hv hv' hs
        simp only [List.cons_append] at h
        rw [this] at h
        simp only [Option.some.injEq, Prod.mk.injEq] at h
        obtain ⟨rfl, rfl⟩ := h
        exact .inr (.inl ⟨u, _, v, v', hu, hu', hv, hv', by simp, hs⟩)
      · by_cases hw : Low v
        · have := unesc_half hg (.inr hw) (fun h => absurd h hv)
          rw [this] at h
          simp only [Option.some.injEq, Prod.mk.injEq] at h
          obtain ⟨rfl, rfl⟩ := h
          exact .inr (.inr ⟨u, v, hu, rfl, .inr hw, fun h => absurd h hv, rfl⟩)
        · have hs := utf8_encode (v := v) (by omega) hv hw
          rw [unesc_unicode hg hs] at h
          simp only [Option.some.injEq, Prod.mk.injEq] at h
          obtain ⟨rfl, rfl⟩ := h
          exact .inl ⟨u, v, hu, rfl, hs⟩
    · by_cases hv : High v ∨ Low v
      · rw [unesc_half hg hv fun _ => hl] at h
        simp only [Option.some.injEq, Prod.mk.injEq] at h
        obtain ⟨rfl, rfl⟩ := h
        exact .inr (.inr ⟨u, v, hu, rfl, hv, fun _ => hl, rfl⟩)
      · have hs := utf8_encode (v := v) (by omega) (fun h => hv (.inl h)) (fun h => hv (.inr h))
        rw [unesc_unicode hg hs] at h
        simp only [Option.some.injEq, Prod.mk.injEq] at h
        obtain ⟨rfl, rfl⟩ := h
        exact .inl ⟨u, v, hu, rfl, hs⟩
  · left
    simp only [unesc] at h
    rw [if_neg hc] at h
    refine ⟨c, ?_⟩
    simp only [simpleEscapes, List.mem_cons, Prod.mk.injEq, List.not_mem_nil, or_false, List.cons.injEq, true_and]
    repeat'
      first
      | (cases h; done)
      | (split at h
         · rename_i hx
           subst hx
           simp only [Option.some.injEq, Prod.mk.injEq] at h
           obtain ⟨rfl, rfl⟩ := h
           exact ⟨_, by decide, rfl, rfl⟩)

/-! ### strings -/

theorem hexEscape_quote {u : Bytes} {v : Nat} (h : HexEscape u v) : (34 : UInt8) ∉ u := by
  obtain ⟨a, b, c, d, w, x, y, z, rfl, ha, hb, hc, hd, -⟩ := h
  unfold HexDigit at *
  have hne : ∀ {e : UInt8}, e.toNat ≠ 34 → (34 : UInt8) ≠ e := by
    intro e he h
    subst h
    exact he rfl
  simp only [List.mem_cons, List.not_mem_nil, or_false, not_or]
  exact ⟨by decide, by decide, hne (by omega), hne (by omega), hne (by omega), hne (by omega)⟩

theorem lowNext_append {t r : Bytes} (h : LowNext (t ++ 34 :: r)) : LowNext t := by
  obtain ⟨u', t', v', e, hu, hl⟩ := h
  rcases List.append_eq_append_iff.1 e with ⟨as, rfl, hcs⟩ | ⟨bs, rfl, hds⟩
  · cases as with
    | nil => exact ⟨t, [], v', by simp, by simpa using hu, hl⟩
    | cons a as =>
      simp only [List.cons_append, List.cons.injEq] at hcs
      obtain ⟨rfl, -⟩ := hcs
      exact absurd (by simp) (hexEscape_quote hu)
  · exact ⟨u', bs, v', rfl, hu, hl⟩

theorem parseStrF_sound (n : Nat) : ∀ {s raw r : Bytes}, parseStrF n s = some (raw, r) → ∃ body, s = body ++ 34 :: r ∧ StringBody body raw := by
  induction n with
  | zero => intro s raw r h; cases s <;> cases h
  | succ n ih =>
    intro s raw r h
    cases s with
    | nil => cases h
    | cons c s =>
    simp only [parseStrF] at h
    split at h
    · rename_i hc
      subst hc
      cases h
      exact ⟨[], rfl, .nil⟩
    rename_i h34
    split at h
    · rename_i hc
      subst hc
      split at h
      · cases h
      rename_i o r1 hu
      cases hp : parseStrF n r1 with
      | none => rw [hp] at h; cases h
      | some p =>
      obtain ⟨raw', r'⟩ := p
      rw [hp] at h
      simp only [Option.map_some, Option.some.injEq, Prod.mk.injEq] at h
      obtain ⟨rfl, rfl⟩ := h
      obtain ⟨body, rfl, hb⟩ := ih hp
      rcases unesc_sound hu with ⟨c, b, hm, rfl, rfl⟩ | ⟨u, v, hx, rfl, ho⟩ | ⟨u, u', v, v', hx, hx', hv, hv', rfl, ho⟩ | ⟨u, v, hx, rfl, hv, hno, rfl⟩
      · exact ⟨92 :: c :: body, rfl, .simple hm hb⟩
      · exact ⟨92 :: 117 :: u ++ body, by simp, .unicode hx ho hb⟩
      · exact ⟨92 :: 117 :: u ++ u' ++ body, by simp, .pair hx hx' hv hv' ho hb⟩
      · refine ⟨92 :: 117 :: u ++ body, by simp, .half hx hv ?_ hb⟩
        intro hh u' t' v' e hu' hl
        exact hno hh ⟨u', t' ++ 34 :: r', v', by rw [e, List.append_assoc], hu', hl⟩
    rename_i h92
    split at h
    · cases h
    rename_i h20
    cases hp : parseStrF n s with
    | none => rw [hp] at h; cases h
    | some p =>
    obtain ⟨raw', r'⟩ := p
    rw [hp] at h
    simp only [Option.map_some, Option.some.injEq, Prod.mk.injEq] at h
    obtain ⟨rfl, rfl⟩ := h
    obtain ⟨body, rfl, hb⟩ := ih hp
    refine ⟨c :: body, rfl, .plain ?_ h34 h92 hb⟩
    rw [UInt8.lt_iff_toNat_lt] at h20
    simpa using h20

theorem parseStrF_complete {body raw : Bytes} (h : StringBody body raw) : ∀ (r : Bytes) (n : Nat), (body ++ 34 :: r).length ≤ n →
    parseStrF n (body ++ 34 :: r) = some (raw, r) := by
  induction h with
  | nil =>
    intro r n hn
    match n, hn with
    | n + 1, _ => rfl
  | @plain c t s h1 h2 h3 _ ih =>
    intro r n hn
    match n, hn with
    | n + 1, hn =>
    simp only [List.cons_append, List.length_cons] at hn
    have h20 : ¬ c < 0x20 := by rw [UInt8.lt_iff_toNat_lt]; simpa using h1
    simp only [List.cons_append, parseStrF, if_neg h2, if_neg h3, if_neg h20, ih r n (by omega), Option.map_some]
  | @simple c b t s hm _ ih =>
    intro r n hn
    match n, hn with
    | n + 1, hn =>
    simp only [List.cons_append, List.length_cons] at hn
    simp only [List.cons_append, parseStrF, unesc_simple hm, ih r n (by omega), Option.map_some]
    rfl
  | @unicode u t s bs v hu hb _ ih =>
    intro r n hn
    obtain ⟨x, rfl, hx⟩ := getu4_complete hu (t ++ 34 :: r)
    match n, hn with
    | n + 1, hn =>
    simp only [List.cons_append, List.length_cons, List.length_append, List.append_assoc] at hn
    have := ih r n (by simp only [List.length_cons, List.length_append]; omega)
    simp only [List.cons_append, List.append_assoc, parseStrF, unesc_unicode hx hb, this, Option.map_some]
    rfl
  | @pair u u' t s bs v v' hu hu' hv hv' hb _ ih =>
    intro r n hn
    obtain ⟨x, rfl, hx⟩ := getu4_complete hu []
    obtain ⟨x', rfl, hx'⟩ := getu4_complete hu' (t ++ 34 :: r)
    match n, hn with
    | n + 1, hn =>
    simp only [List.cons_append, List.length_cons, List.length_append, List.append_assoc] at hn
    have := ih r n (by simp only [List.length_cons, List.length_append]; omega)
    have he := unesc_pair (x := x) (fun t => by obtain ⟨y, hy, hg⟩ := getu4_complete hu t; simp at hy; rw [hy]; exact hg) hx' hv hv' hb
    simp only [List.cons_append, List.append_assoc, parseStrF, he, this, Option.map_some]
    rfl
  | @half u t s v hu hv hno _ ih =>
    intro r n hn
    obtain ⟨x, rfl, hx⟩ := getu4_complete hu (t ++ 34 :: r)
    match n, hn with
    | n + 1, hn =>
    simp only [List.cons_append, List.length_cons, List.length_append, List.append_assoc] at hn
    have := ih r n (by simp only [List.length_cons, List.length_append]; omega)
    have he := unesc_half hx hv fun hh hl => by
      obtain ⟨u', t', v', e, hu', hl'⟩ := lowNext_append hl
      exact hno hh u' t' v' e hu' hl'
    simp only [List.cons_append, List.append_assoc, parseStrF, he, this, Option.map_some]
    rfl

theorem parseStr_sound {s v r : Bytes} (h : parseStr s = some (v, r)) : ∃ k, 34 :: s = k ++ r ∧ StringText k v := by
  unfold parseStr at h
  cases hp : parseStrF s.length s with
  | none => rw [hp] at h; cases h
  | some p =>
  obtain ⟨raw, r'⟩ := p
  rw [hp] at h
  simp only [Option.map_some, Option.some.injEq, Prod.mk.injEq] at h
  obtain ⟨rfl, rfl⟩ := h
  obtain ⟨body, rfl, hb⟩ := parseStrF_sound _ hp
  exact ⟨[34] ++ body ++ [34], by simp, body, raw, rfl, hb, repaired_sanitize raw⟩

theorem parseStr_complete {k v : Bytes} (h : StringText k v) (r : Bytes) : ∃ s, k ++ r = 34 :: s ∧ parseStr s = some (v, r) := by
  obtain ⟨body, raw, rfl, hb, hr⟩ := h
  refine ⟨body ++ 34 :: r, by simp, ?_⟩
  unfold parseStr
  rw [parseStrF_complete hb r _ (Nat.le_refl _), Option.map_some, repaired_eq hr]

end Verif
