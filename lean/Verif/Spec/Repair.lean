/- Texts of characters, and documents whose texts are repaired. -/
import Verif.Spec.Grammar

namespace Verif.Spec

/-- UTF-8 throughout: the characters one after the other. -/
inductive Characters : Bytes → Prop
  | nil : Characters []
  | char {v : Nat} {bs t : Bytes} (hb : Utf8 v bs) (h : Characters t) : Characters (bs ++ t)

/-- What is a value, the elements of a list, the members of an object. -/
inductive Pack where
  | value (j : Json)
  | elements (l : List Json)
  | members (ms : List (Bytes × Json))

/-- The same document, but with every byte that is not UTF-8 replaced in its texts and names. -/
inductive RepairedDoc : Pack → Pack → Prop
  | null : RepairedDoc (.value .null) (.value .null)
  | bool (b : Bool) : RepairedDoc (.value (.bool b)) (.value (.bool b))
  | num (t : Bytes) : RepairedDoc (.value (.num t)) (.value (.num t))
  | str {s s' : Bytes} (h : Repaired s s') : RepairedDoc (.value (.str s)) (.value (.str s'))
  | arr {l l' : List Json} (h : RepairedDoc (.elements l) (.elements l')) : RepairedDoc (.value (.arr l)) (.value (.arr l'))
  | obj {ms ms' : List (Bytes × Json)} (h : RepairedDoc (.members ms) (.members ms')) : RepairedDoc (.value (.obj ms)) (.value (.obj ms'))
  | noElements : RepairedDoc (.elements []) (.elements [])
  | element {j j' : Json} {l l' : List Json} (h : RepairedDoc (.value j) (.value j')) (t : RepairedDoc (.elements l) (.elements l')) :
      RepairedDoc (.elements (j :: l)) (.elements (j' :: l'))
  | noMembers : RepairedDoc (.members []) (.members [])
  | member {k k' : Bytes} {j j' : Json} {ms ms' : List (Bytes × Json)} (hk : Repaired k k') (h : RepairedDoc (.value j) (.value j'))
      (t : RepairedDoc (.members ms) (.members ms')) : RepairedDoc (.members ((k, j) :: ms)) (.members ((k', j') :: ms'))

end Verif.Spec
