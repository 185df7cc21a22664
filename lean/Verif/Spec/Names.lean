/- What names the documentation allows. Independent of the validators. -/
import Verif.Base.Bytes

namespace Verif.Spec

/-- `[a-zA-Z0-9]` -/
def Alnum (c : UInt8) : Prop := (48 ≤ c ∧ c ≤ 57) ∨ (65 ≤ c ∧ c ≤ 90) ∨ (97 ≤ c ∧ c ≤ 122)

/-- A container ID or network name: starts with an alphanumeric, continues with alphanumerics, `_`, `.`, `-`. -/
def ValidName (s : Bytes) : Prop :=
  ∃ c r, s = c :: r ∧ Alnum c ∧ ∀ x ∈ r, Alnum x ∨ x = 95 ∨ x = 46 ∨ x = 45

/-- What an interface name must not contain, as byte sequences: `/`, `:` and every white-space
character (in UTF-8): TAB LF VT FF CR SPACE, U+0085, U+00A0, U+1680, U+2000-200A, U+2028, U+2029, U+202F,
U+205F, U+3000. -/
def forbiddenInIfName : List Bytes :=
  [[47], [58], [9], [10], [11], [12], [13], [32], [0xC2, 0x85], [0xC2, 0xA0], [0xE1, 0x9A, 0x80],
   [0xE2, 0x80, 0x80], [0xE2, 0x80, 0x81], [0xE2, 0x80, 0x82], [0xE2, 0x80, 0x83], [0xE2, 0x80, 0x84],
   [0xE2, 0x80, 0x85], [0xE2, 0x80, 0x86], [0xE2, 0x80, 0x87], [0xE2, 0x80, 0x88], [0xE2, 0x80, 0x89],
   [0xE2, 0x80, 0x8A], [0xE2, 0x80, 0xA8], [0xE2, 0x80, 0xA9], [0xE2, 0x80, 0xAF], [0xE2, 0x81, 0x9F],
   [0xE3, 0x80, 0x80]]

/-- A valid interface name: 1 to 15 bytes, not `.` or `..`, nothing forbidden anywhere in it. -/
def ValidIfName (s : Bytes) : Prop :=
  1 ≤ s.length ∧ s.length ≤ 15 ∧ s ≠ b!"." ∧ s ≠ b!".." ∧
    ∀ w ∈ forbiddenInIfName, ¬ ∃ a b, s = a ++ w ++ b

end Verif.Spec
