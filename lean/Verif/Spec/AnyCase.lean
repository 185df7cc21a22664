/- Words in any capitalisation. Models no code. -/
import Verif.Base.Bytes

namespace Verif.Spec

/-- A text is a word of lower-case letters, some of them possibly in upper case. -/
inductive AnyCase : Bytes → Bytes → Prop
  | nil : AnyCase [] []
  | same {w t : Bytes} (c : UInt8) (h : AnyCase w t) : AnyCase (c :: w) (c :: t)
  | upper {w t : Bytes} {c d : UInt8} (hc : 97 ≤ c.toNat ∧ c.toNat ≤ 122) (hd : d.toNat + 32 = c.toNat) (h : AnyCase w t) :
    AnyCase (c :: w) (d :: t)

end Verif.Spec
