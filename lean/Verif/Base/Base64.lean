/- Standard base64 with padding (Go `encoding/base64.StdEncoding`), the JSON form of `[]byte`. -/
import Verif.Base.BytesLemmas

namespace Verif

/-- The alphabet. Go standard library (encoding/base64), which encoding/json uses for the `Config`
field of libcni/api.go:225-236 `cachedInfo`. -/
def b64Char (n : Nat) : UInt8 :=
  if n < 26 then UInt8.ofNat (65 + n)
  else if n < 52 then UInt8.ofNat (71 + n)
  else if n < 62 then UInt8.ofNat (n - 4)
  else if n = 62 then 43 else 47

/-- Go standard library (encoding/base64), which encoding/json uses for the `Config` field of
libcni/api.go:225-236 `cachedInfo`. -/
def b64Val (c : UInt8) : Option Nat :=
  if isUpper c then some (c.toNat - 65)
  else if isLower c then some (c.toNat - 71)
  else if isDigit c then some (c.toNat + 4)
  else if c = 43 then some 62
  else if c = 47 then some 63
  else none

/-- `EncodeToString`. Go standard library (encoding/base64), which encoding/json uses for the
`Config` field of libcni/api.go:225-236 `cachedInfo`. -/
def b64Enc : Bytes → Bytes
  | [] => []
  | [a] => [b64Char (a.toNat / 4), b64Char (a.toNat % 4 * 16), 61, 61]
  | [a, b] => [b64Char (a.toNat / 4), b64Char (a.toNat % 4 * 16 + b.toNat / 16), b64Char (b.toNat % 16 * 4), 61]
  | a :: b :: c :: r =>
    b64Char (a.toNat / 4) :: b64Char (a.toNat % 4 * 16 + b.toNat / 16) ::
    b64Char (b.toNat % 16 * 4 + c.toNat / 64) :: b64Char (c.toNat % 64) :: b64Enc r

/-- Decoding of input without line breaks. Go standard library (encoding/base64), which
encoding/json uses for the `Config` field of libcni/api.go:225-236 `cachedInfo`. -/
def b64DecGroups : Bytes → Option Bytes
  | [] => some []
  | x :: y :: z :: w :: r =>
    match b64Val x, b64Val y with
    | some a, some b =>
      if z = 61 then
        (if w = 61 ∧ r = [] then some [UInt8.ofNat (a * 4 + b / 16)] else none)
      else match b64Val z with
        | none => none
        | some c =>
          if w = 61 then
            (if r = [] then some [UInt8.ofNat (a * 4 + b / 16), UInt8.ofNat (b % 16 * 16 + c / 4)] else none)
          else match b64Val w with
            | none => none
            | some d =>
              (b64DecGroups r).map fun t =>
                UInt8.ofNat (a * 4 + b / 16) :: UInt8.ofNat (b % 16 * 16 + c / 4) ::
                UInt8.ofNat (c % 4 * 64 + d) :: t
    | _, _ => none
  | _ => none

/-- `DecodeString`: carriage returns and newlines are ignored. Go standard library
(encoding/base64), which encoding/json uses for the `Config` field of
libcni/api.go:225-236 `cachedInfo`. -/
def b64Dec (s : Bytes) : Option Bytes := b64DecGroups (s.filter fun c => c ≠ 10 ∧ c ≠ 13)

theorem b64_table : ∀ n : Fin 64, b64Val (b64Char n.val) = some n.val ∧ b64Char n.val ≠ 61
    ∧ b64Char n.val ≠ 10 ∧ b64Char n.val ≠ 13 ∧ b64Char n.val < 128 := by decide

theorem b64Val_char {n : Nat} (h : n < 64) : b64Val (b64Char n) = some n ∧ b64Char n ≠ 61
    ∧ b64Char n ≠ 10 ∧ b64Char n ≠ 13 ∧ b64Char n < 128 := b64_table ⟨n, h⟩

theorem b64Enc_chars (s : Bytes) : ∀ c ∈ b64Enc s, (c ≠ 10 ∧ c ≠ 13) ∧ c < 128 := by
  fun_induction b64Enc s with
  | case1 => simp
  | case2 a =>
    have ha := a.toNat_lt
    have h1 := b64Val_char (n := a.toNat / 4) (by omega)
    have h2 := b64Val_char (n := a.toNat % 4 * 16) (by omega)
    intro c hc
    simp at hc
    rcases hc with rfl | rfl | rfl
    · exact ⟨⟨h1.2.2.1, h1.2.2.2.1⟩, h1.2.2.2.2⟩
    · exact ⟨⟨h2.2.2.1, h2.2.2.2.1⟩, h2.2.2.2.2⟩
    · decide
  | case3 a b =>
    have ha := a.toNat_lt; have hb := b.toNat_lt
    have h1 := b64Val_char (n := a.toNat / 4) (by omega)
    have h2 := b64Val_char (n := a.toNat % 4 * 16 + b.toNat / 16) (by omega)
    have h3 := b64Val_char (n := b.toNat % 16 * 4) (by omega)
    intro c hc
    simp at hc
    rcases hc with rfl | rfl | rfl | rfl
    · exact ⟨⟨h1.2.2.1, h1.2.2.2.1⟩, h1.2.2.2.2⟩
    · exact ⟨⟨h2.2.2.1, h2.2.2.2.1⟩, h2.2.2.2.2⟩
    · exact ⟨⟨h3.2.2.1, h3.2.2.2.1⟩, h3.2.2.2.2⟩
    · decide
  | case4 a b c r ih =>
    have ha := a.toNat_lt; have hb := b.toNat_lt; have hcc := c.toNat_lt
    have h1 := b64Val_char (n := a.toNat / 4) (by omega)
    have h2 := b64Val_char (n := a.toNat % 4 * 16 + b.toNat / 16) (by omega)
    have h3 := b64Val_char (n := b.toNat % 16 * 4 + c.toNat / 64) (by omega)
    have h4 := b64Val_char (n := c.toNat % 64) (by omega)
    intro d hd
    simp at hd
    rcases hd with rfl | rfl | rfl | rfl | hd
    · exact ⟨⟨h1.2.2.1, h1.2.2.2.1⟩, h1.2.2.2.2⟩
    · exact ⟨⟨h2.2.2.1, h2.2.2.2.1⟩, h2.2.2.2.2⟩
    · exact ⟨⟨h3.2.2.1, h3.2.2.2.1⟩, h3.2.2.2.2⟩
    · exact ⟨⟨h4.2.2.1, h4.2.2.2.1⟩, h4.2.2.2.2⟩
    · exact ih d hd

theorem ofNat_eq_of_toNat {n : Nat} {c : UInt8} (h : n = c.toNat) : UInt8.ofNat n = c := by
  subst h; simp

theorem b64DecGroups_enc (s : Bytes) : b64DecGroups (b64Enc s) = some s := by
  fun_induction b64Enc s with
  | case1 => rfl
  | case2 a =>
    have ha := a.toNat_lt
    have h1 := b64Val_char (n := a.toNat / 4) (by omega)
    have h2 := b64Val_char (n := a.toNat % 4 * 16) (by omega)
    simp only [b64DecGroups, h1.1, h2.1, and_self, if_true]
    rw [ofNat_eq_of_toNat (c := a) (by omega)]
  | case3 a b =>
    have ha := a.toNat_lt; have hb := b.toNat_lt
    have h1 := b64Val_char (n := a.toNat / 4) (by omega)
    have h2 := b64Val_char (n := a.toNat % 4 * 16 + b.toNat / 16) (by omega)
    have h3 := b64Val_char (n := b.toNat % 16 * 4) (by omega)
    simp only [b64DecGroups, h1.1, h2.1, h3.1, h3.2.1, if_true, if_false]
    rw [ofNat_eq_of_toNat (c := a) (by omega), ofNat_eq_of_toNat (c := b) (by omega)]
  | case4 a b c r ih =>
    have ha := a.toNat_lt; have hb := b.toNat_lt; have hcc := c.toNat_lt
    have h1 := b64Val_char (n := a.toNat / 4) (by omega)
    have h2 := b64Val_char (n := a.toNat % 4 * 16 + b.toNat / 16) (by omega)
    have h3 := b64Val_char (n := b.toNat % 16 * 4 + c.toNat / 64) (by omega)
    have h4 := b64Val_char (n := c.toNat % 64) (by omega)
    simp only [b64DecGroups, h1.1, h2.1, h3.1, h4.1, h3.2.1, h4.2.1, if_false, ih, Option.map_some]
    rw [ofNat_eq_of_toNat (c := a) (by omega), ofNat_eq_of_toNat (c := b) (by omega),
      ofNat_eq_of_toNat (c := c) (by omega)]

/-- Decoding what was encoded. -/
theorem b64Dec_enc (s : Bytes) : b64Dec (b64Enc s) = some s := by
  unfold b64Dec
  rw [List.filter_eq_self.2 (fun c hc => by simpa using (b64Enc_chars s c hc).1)]
  exact b64DecGroups_enc s

example : b64Enc b!"hello" = b!"aGVsbG8=" := by decide

end Verif
