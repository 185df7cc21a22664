/- What a document is once Go has decoded it without a schema and encoded it again. Independent of the model's decoder. -/
import Verif.Spec.Float
import Verif.Spec.Doc
import Verif.Spec.ByteOrder

namespace Verif.Spec

/-- The second document says the same as the first: numbers are the same doubles, arrays have the same elements in the same order, objects the
same keys, in byte order and each once, with the value of the last member of that name. Everything else is unchanged. -/
inductive Decoded : Json → Json → Prop
  | null : Decoded .null .null
  | bool (b : Bool) : Decoded (.bool b) (.bool b)
  | str (s : Bytes) : Decoded (.str s) (.str s)
  | num {t t' : Bytes} (h : SameDouble t t') : Decoded (.num t) (.num t')
  | arr {l l' : List Json} (hl : l.length = l'.length) (h : ∀ (i : Nat) a b, l[i]? = some a → l'[i]? = some b → Decoded a b) : Decoded (.arr l) (.arr l')
  | obj {l l' : List (Bytes × Json)} (hs : l'.Pairwise fun x y => ByteBefore x.1 y.1) (hk : ∀ k, NoMember l k ↔ NoMember l' k)
      (h : ∀ k a b, LastMember l k a → (k, b) ∈ l' → Decoded a b) : Decoded (.obj l) (.obj l')

/-- The number text is somewhere in the document, even in a member that a later one of the same name hides. -/
inductive HasNumber (t : Bytes) : Json → Prop
  | num : HasNumber t (.num t)
  | arr {l : List Json} {a : Json} (h : a ∈ l) (ha : HasNumber t a) : HasNumber t (.arr l)
  | obj {l : List (Bytes × Json)} {k : Bytes} {a : Json} (h : (k, a) ∈ l) (ha : HasNumber t a) : HasNumber t (.obj l)

/-- No number of the document is too large for a double. -/
def InRange (j : Json) : Prop := ∀ t, HasNumber t j → ¬ TooLarge t

end Verif.Spec
