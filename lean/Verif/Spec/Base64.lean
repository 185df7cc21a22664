/- Base64 (RFC 4648, section 4). -/
import Verif.Base.Bytes

namespace Verif.Spec

/-- The 64 characters and their values: the capital letters, the small letters, the digits, plus and slash. -/
def Digit64 (c : UInt8) (v : Nat) : Prop :=
  (v < 26 ∧ c.toNat = 65 + v) ∨ (26 ≤ v ∧ v < 52 ∧ c.toNat = 97 + (v - 26)) ∨ (52 ≤ v ∧ v < 62 ∧ c.toNat = 48 + (v - 52)) ∨
  (v = 62 ∧ c = 43) ∨ (v = 63 ∧ c = 47)

/-- A text for bytes: four characters for three bytes, of six bits each, the higher ones first; at the end two or three characters, filled up with equals signs,
for one or two bytes. The bits left over there are zero in a `tidy` text. -/
inductive Base64 (tidy : Prop) : Bytes → Bytes → Prop
  | nil : Base64 tidy [] []
  | one {x y p : UInt8} {a b : Nat} (hx : Digit64 x a) (hy : Digit64 y b) (h : (a * 64 + b) / 16 = p.toNat)
      (ht : tidy → (a * 64 + b) % 16 = 0) : Base64 tidy [x, y, 61, 61] [p]
  | two {x y z p q : UInt8} {a b c : Nat} (hx : Digit64 x a) (hy : Digit64 y b) (hz : Digit64 z c)
      (h : (a * 4096 + b * 64 + c) / 4 = p.toNat * 256 + q.toNat) (ht : tidy → (a * 4096 + b * 64 + c) % 4 = 0) : Base64 tidy [x, y, z, 61] [p, q]
  | three {x y z w p q r : UInt8} {a b c d : Nat} {t s : Bytes} (hx : Digit64 x a) (hy : Digit64 y b) (hz : Digit64 z c) (hw : Digit64 w d)
      (h : a * 262144 + b * 4096 + c * 64 + d = p.toNat * 65536 + q.toNat * 256 + r.toNat) (hr : Base64 tidy t s) :
      Base64 tidy (x :: y :: z :: w :: t) (p :: q :: r :: s)

end Verif.Spec
