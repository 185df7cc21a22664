/- Base64 as modelled and as specified. -/
import Verif.Base.Base64
import Verif.Spec.Base64

namespace Verif
open Spec

theorem digit64_iff {c : UInt8} {v : Nat} : b64Val c = some v ↔ Digit64 c v := by
  unfold b64Val Digit64
  have key : ∀ c : UInt8, (isUpper c = true ↔ 65 ≤ c.toNat ∧ c.toNat ≤ 90) ∧ (isLower c = true ↔ 97 ≤ c.toNat ∧ c.toNat ≤ 122) ∧
      (isDigit c = true ↔ 48 ≤ c.toNat ∧ c.toNat ≤ 57) ∧ (c = 43 ↔ c.toNat = 43) ∧ (c = 47 ↔ c.toNat = 47) := by
    intro c
    refine ⟨?_, ?_, ?_, ?_, ?_⟩
    · simp [isUpper, UInt8.le_iff_toNat_le]
    · simp [isLower, UInt8.le_iff_toNat_le]
    · simp [isDigit, UInt8.le_iff_toNat_le]
    · rw [← UInt8.toNat_inj]; rfl
    · rw [← UInt8.toNat_inj]; rfl
  obtain ⟨h1, h2, h3, h4, h5⟩ := key c
  simp only [h4, h5]
  split
  · rw [h1] at *; simp only [Option.some.injEq]; omega
  · rw [h1] at *
    split
    · rw [h2] at *; simp only [Option.some.injEq]; omega
    · rw [h2] at *
      split
      · rw [h3] at *; simp only [Option.some.injEq]; omega
      · rw [h3] at *
        split
        · simp only [Option.some.injEq]; omega
        · split
          · simp only [Option.some.injEq]; omega
          · simp only [reduceCtorEq, false_iff]; omega

theorem digit64_lt {c : UInt8} {v : Nat} (h : Digit64 c v) : v < 64 ∧ c ≠ 61 := by
  unfold Digit64 at h
  refine ⟨by rcases h with h | h | h | h | h <;> omega, ?_⟩
  rintro rfl
  have e : (61 : UInt8).toNat = 61 := rfl
  rw [e] at h
  rcases h with h | h | h | h | h
  · omega
  · omega
  · omega
  · exact absurd h.2 (by decide)
  · exact absurd h.2 (by decide)

theorem digit64_char {n : Nat} (h : n < 64) : Digit64 (b64Char n) n := digit64_iff.1 (b64Val_char h).1

theorem ofNat_toNat {n : Nat} {p : UInt8} : (n < 256 ∧ UInt8.ofNat n = p) ↔ n = p.toNat := by
  constructor
  · rintro ⟨h, rfl⟩
    simp [UInt8.toNat_ofNat']
    omega
  · rintro rfl
    exact ⟨p.toNat_lt, by simp⟩

theorem base64_enc (s : Bytes) : Base64 True (b64Enc s) s := by
  fun_induction b64Enc s with
  | case1 => exact .nil
  | case2 a =>
    have ha := a.toNat_lt
    exact .one (digit64_char (by omega)) (digit64_char (by omega)) (by omega) (fun _ => by omega)
  | case3 a b =>
    have ha := a.toNat_lt; have hb := b.toNat_lt
    exact .two (digit64_char (by omega)) (digit64_char (by omega)) (digit64_char (by omega)) (by omega) (fun _ => by omega)
  | case4 a b c r ih =>
    have ha := a.toNat_lt; have hb := b.toNat_lt; have hc := c.toNat_lt
    exact .three (digit64_char (by omega)) (digit64_char (by omega)) (digit64_char (by omega)) (digit64_char (by omega)) (by omega) ih

theorem char_of_digit64 {c : UInt8} {v : Nat} (h : Digit64 c v) : c = b64Char v := by
  have hl := (digit64_lt h).1
  rw [← UInt8.toNat_inj]
  unfold Digit64 at h
  unfold b64Char
  rcases h with h | h | h | h | h
  · rw [if_pos (by omega)]; simp [UInt8.toNat_ofNat']; omega
  · rw [if_neg (by omega), if_pos (by omega)]; simp [UInt8.toNat_ofNat']; omega
  · rw [if_neg (by omega), if_neg (by omega), if_pos (by omega)]; simp [UInt8.toNat_ofNat']; omega
  · obtain ⟨rfl, rfl⟩ := h; rfl
  · obtain ⟨rfl, rfl⟩ := h; rfl

theorem enc_of_base64 {t s : Bytes} (h : Base64 True t s) : t = b64Enc s := by
  induction h with
  | nil => rfl
  | @one x y p a b hx hy h ht =>
    have hp := p.toNat_lt
    have ht := ht trivial
    have := (digit64_lt hx).1; have := (digit64_lt hy).1
    rw [char_of_digit64 hx, char_of_digit64 hy, b64Enc]
    rw [show a = p.toNat / 4 by omega, show b = p.toNat % 4 * 16 by omega]
  | @two x y z p q a b c hx hy hz h ht =>
    have hp := p.toNat_lt; have hq := q.toNat_lt
    have ht := ht trivial
    have := (digit64_lt hx).1; have := (digit64_lt hy).1; have := (digit64_lt hz).1
    rw [char_of_digit64 hx, char_of_digit64 hy, char_of_digit64 hz, b64Enc]
    rw [show a = p.toNat / 4 by omega, show b = p.toNat % 4 * 16 + q.toNat / 16 by omega, show c = q.toNat % 16 * 4 by omega]
  | @three x y z w p q r a b c d t s hx hy hz hw h hr ih =>
    have hp := p.toNat_lt; have hq := q.toNat_lt; have hr := r.toNat_lt
    have := (digit64_lt hx).1; have := (digit64_lt hy).1; have := (digit64_lt hz).1; have := (digit64_lt hw).1
    rw [char_of_digit64 hx, char_of_digit64 hy, char_of_digit64 hz, char_of_digit64 hw, b64Enc, ← ih]
    rw [show a = p.toNat / 4 by omega, show b = p.toNat % 4 * 16 + q.toNat / 16 by omega,
      show c = q.toNat % 16 * 4 + r.toNat / 64 by omega, show d = r.toNat % 64 by omega]

theorem base64_enc_iff {t s : Bytes} : b64Enc s = t ↔ Base64 True t s := ⟨fun h => h ▸ base64_enc s, fun h => (enc_of_base64 h).symm⟩

theorem decGroups_of_base64 {t s : Bytes} (h : Base64 False t s) : b64DecGroups t = some s := by
  induction h with
  | nil => rfl
  | @one x y p a b hx hy h ht =>
    have hp := p.toNat_lt
    simp only [b64DecGroups, digit64_iff.2 hx, digit64_iff.2 hy, and_self, if_true]
    rw [ofNat_eq_of_toNat (c := p) (by omega)]
  | @two x y z p q a b c hx hy hz h ht =>
    have hp := p.toNat_lt; have hq := q.toNat_lt
    have := (digit64_lt hx).1; have := (digit64_lt hy).1; have := (digit64_lt hz).1
    simp only [b64DecGroups, digit64_iff.2 hx, digit64_iff.2 hy, digit64_iff.2 hz, if_neg (digit64_lt hz).2, if_true]
    rw [ofNat_eq_of_toNat (c := p) (by omega), ofNat_eq_of_toNat (c := q) (by omega)]
  | @three x y z w p q r a b c d t s hx hy hz hw h hr ih =>
    have hp := p.toNat_lt; have hq := q.toNat_lt; have hr := r.toNat_lt
    have := (digit64_lt hx).1; have := (digit64_lt hy).1; have := (digit64_lt hz).1; have := (digit64_lt hw).1
    simp only [b64DecGroups, digit64_iff.2 hx, digit64_iff.2 hy, digit64_iff.2 hz, digit64_iff.2 hw, if_neg (digit64_lt hz).2,
      if_neg (digit64_lt hw).2, ih, Option.map_some]
    rw [ofNat_eq_of_toNat (c := p) (by omega), ofNat_eq_of_toNat (c := q) (by omega), ofNat_eq_of_toNat (c := r) (by omega)]

theorem base64_of_decGroups : ∀ {t s : Bytes}, b64DecGroups t = some s → Base64 False t s
  | [], s, h => by cases h; exact .nil
  | [_], s, h => by cases h
  | [_, _], s, h => by cases h
  | [_, _, _], s, h => by cases h
  | x :: y :: z :: w :: r, s, h => by
    rw [b64DecGroups] at h
    split at h
    case h_2 => cases h
    case h_1 a b hx hy =>
    have hx := digit64_iff.1 hx; have hy := digit64_iff.1 hy
    have := (digit64_lt hx).1; have := (digit64_lt hy).1
    split at h
    case isTrue hz =>
      split at h
      case isFalse => cases h
      case isTrue hw =>
        cases h
        obtain ⟨rfl, rfl⟩ := hw
        subst hz
        exact .one hx hy (by rw [← ofNat_toNat.1 ⟨by omega, rfl⟩]; omega) False.elim
    case isFalse hz =>
      split at h
      case h_1 => cases h
      case h_2 c hc =>
      have hc := digit64_iff.1 hc
      have := (digit64_lt hc).1
      split at h
      case isTrue hw =>
        split at h
        case isFalse => cases h
        case isTrue hr =>
          cases h
          subst hw hr
          exact .two hx hy hc (by rw [← ofNat_toNat.1 ⟨by omega, rfl⟩, ← ofNat_toNat.1 ⟨by omega, rfl⟩]; omega) False.elim
      case isFalse hw =>
        split at h
        case h_1 => cases h
        case h_2 d hd =>
        have hd := digit64_iff.1 hd
        have := (digit64_lt hd).1
        obtain ⟨t, ht, rfl⟩ := Option.map_eq_some_iff.1 h
        exact .three hx hy hc hd (by rw [← ofNat_toNat.1 ⟨by omega, rfl⟩, ← ofNat_toNat.1 ⟨by omega, rfl⟩, ← ofNat_toNat.1 ⟨by omega, rfl⟩]; omega)
          (base64_of_decGroups ht)

theorem base64_dec_iff {t s : Bytes} : b64Dec t = some s ↔ Base64 False (t.filter fun c => c ≠ 10 ∧ c ≠ 13) s :=
  ⟨base64_of_decGroups, decGroups_of_base64⟩

end Verif
