/- What a version string means: independent of how the code parses it. -/
import Verif.Base.Bytes
import Verif.Spec.Digits

namespace Verif.Spec

/-- A decimal integer with optional sign that fits a 64-bit `int`, and its value. -/
def IntLit (s : Bytes) (n : Int) : Prop :=
  ∃ (ds : Bytes) (m : Nat), Places DecDigit 10 ds m ∧
    ((s = ds ∧ n = m) ∨ (s = 43 :: ds ∧ n = m) ∨ (s = 45 :: ds ∧ n = -(m : Int))) ∧ -2 ^ 63 ≤ n ∧ n < 2 ^ 63

/-- `v` reads as (major, minor, micro): missing parts are 0, the empty string is 0.1.0. -/
inductive Reads : Bytes → Int × Int × Int → Prop
  | empty : Reads [] (0, 1, 0)
  | one {a x} : IntLit a x → Reads a (x, 0, 0)
  | two {a b x y} : IntLit a x → IntLit b y → Reads (a ++ 46 :: b) (x, y, 0)
  | three {a b c x y z} : IntLit a x → IntLit b y → IntLit c z → Reads (a ++ 46 :: (b ++ 46 :: c)) (x, y, z)

/-- Lexicographic order on triples. -/
def LexLt (p q : Int × Int × Int) : Prop :=
  p.1 < q.1 ∨ (p.1 = q.1 ∧ (p.2.1 < q.2.1 ∨ (p.2.1 = q.2.1 ∧ p.2.2 < q.2.2)))
def LexLe (p q : Int × Int × Int) : Prop := p = q ∨ LexLt p q

/-- `v` is a well-formed version and at least `t`. -/
def AtLeast (v : Bytes) (t : Int × Int × Int) : Prop := ∃ p, Reads v p ∧ LexLe t p

end Verif.Spec
