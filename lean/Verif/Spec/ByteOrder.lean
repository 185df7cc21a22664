/- The byte order of texts. Models no code. -/
import Verif.Base.Bytes

namespace Verif.Spec

/-- `a` comes before `b`: it is the shorter beginning of it, or at the first place where they differ it has the smaller byte. -/
inductive ByteBefore : Bytes → Bytes → Prop
  | shorter (x t : Bytes) (h : t ≠ []) : ByteBefore x (x ++ t)
  | smaller (x s t : Bytes) (c d : UInt8) (h : c.toNat < d.toNat) : ByteBefore (x ++ c :: s) (x ++ d :: t)

end Verif.Spec
