/- Numbers written to a base. Models no code. -/
import Verif.Base.Bytes

namespace Verif.Spec

/-- A decimal digit and its value. -/
def DecDigit (c : UInt8) (v : Nat) : Prop := v < 10 ∧ c.toNat = 48 + v

/-- Digits and the number they stand for; leading zeros are allowed. -/
inductive Places (D : UInt8 → Nat → Prop) (base : Nat) : Bytes → Nat → Prop
  | digit {c : UInt8} {v : Nat} (h : D c v) : Places D base [c] v
  | more {t : Bytes} {n : Nat} {c : UInt8} {v : Nat} (ht : Places D base t n) (h : D c v) : Places D base (t ++ [c]) (n * base + v)

end Verif.Spec
