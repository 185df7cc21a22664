/- Number texts as decimal numbers, and the double (IEEE-754 binary64) nearest to one. Independent of the model's rounding. -/
import Verif.Spec.Grammar
import Verif.Spec.Digits

namespace Verif.Spec
set_option exponentiation.threshold 3000

/-- The exponent part of a number text, and the exponent it gives. -/
inductive PowerText : Bytes → Int → Prop
  | none : PowerText [] 0
  | bare {e : UInt8} {ds : Bytes} {n : Nat} (he : e = 101 ∨ e = 69) (h : Places DecDigit 10 ds n) : PowerText (e :: ds) n
  | plus {e : UInt8} {ds : Bytes} {n : Nat} (he : e = 101 ∨ e = 69) (h : Places DecDigit 10 ds n) : PowerText (e :: 43 :: ds) n
  | minus {e : UInt8} {ds : Bytes} {n : Nat} (he : e = 101 ∨ e = 69) (h : Places DecDigit 10 ds n) : PowerText (e :: 45 :: ds) (-n)

/-- The fraction part of a number text, and its digits. -/
inductive FractionText : Bytes → Bytes → Prop
  | none : FractionText [] []
  | point {ds : Bytes} (h : ds ≠ []) (hd : Digits ds) : FractionText (46 :: ds) ds

/-- A number text (see `NumberText`) whose value is `D * 10 ^ E`, negated when `neg`. -/
def Decimal (t : Bytes) (neg : Bool) (D : Nat) (E : Int) : Prop :=
  ∃ int frac fd exp x, t = (if neg then [45] else []) ++ int ++ frac ++ exp ∧
    (int = [48] ∨ ∃ c ds, int = c :: ds ∧ c ≠ 48 ∧ Digits int) ∧
    FractionText frac fd ∧ PowerText exp x ∧ Places DecDigit 10 (int ++ fd) D ∧ E = x - fd.length

/-- `m * 2 ^ k * 2 ^ -1074` with 53 significant bits; below the normal range with the smallest exponent. Without a largest exponent. -/
def Binary (m k : Nat) : Prop := m < 2 ^ 53 ∧ (k = 0 ∨ 2 ^ 52 ≤ m)

/-- How far `D * 10 ^ E` is from `m * 2 ^ k * 2 ^ -1074`, in units that do not depend on `m` and `k`: both times `2 ^ 1074` and, when `E` is
negative, `10 ^ -E`. -/
def apart (D : Nat) (E : Int) (m k : Nat) : Nat :=
  ((D * 10 ^ E.toNat * 2 ^ 1074 : Nat) - (m * 2 ^ k * 10 ^ (-E).toNat : Nat) : Int).natAbs

/-- `m * 2 ^ k * 2 ^ -1074` is the nearest to `D * 10 ^ E`; of two equally near, the one with the even significand. -/
structure Nearest (D : Nat) (E : Int) (m k : Nat) : Prop where
  binary : Binary m k
  best : ∀ m' k', Binary m' k' → apart D E m k ≤ apart D E m' k'
  even : ∀ m' k', Binary m' k' → (m', k') ≠ (m, k) → apart D E m' k' = apart D E m k → m % 2 = 0

/-- The text is a number, and this (sign, significand, exponent) is the double nearest to it: it is in range, that is below `2 ^ 1024`. -/
def DoubleOf (t : Bytes) (neg : Bool) (m k : Nat) : Prop := ∃ D E, Decimal t neg D E ∧ Nearest D E m k ∧ k ≤ 2045

/-- The text is a number too large for a double. -/
def TooLarge (t : Bytes) : Prop := ∃ neg D E m k, Decimal t neg D E ∧ Nearest D E m k ∧ 2045 < k

/-- Two texts of the same double. -/
def SameDouble (t t' : Bytes) : Prop := ∃ neg m k, DoubleOf t neg m k ∧ DoubleOf t' neg m k

end Verif.Spec
