/- The texts that the fields of a struct given to LoadArgs take. -/
import Verif.Invoke.Args
import Verif.Spec.AddrRead
import Verif.Spec.Doc
import Verif.Spec.AnyCase

namespace Verif.Spec

/-- A text for a truth value. -/
def BoolText (t : Bytes) : Bool → Prop
  | true => t = b!"1" ∨ AnyCase b!"true" t
  | false => t = b!"0" ∨ AnyCase b!"false" t

/-- A field takes a text and holds something afterwards: truth values as above, every text in a text field, and in a field of another type with
`UnmarshalText` the texts that method accepts. -/
inductive Takes : ArgField → Bytes → ArgField → Prop
  | bool {b b' : Bool} {t : Bytes} (h : BoolText t b') : Takes (.bool b) t (.bool b')
  | str {s t : Bytes} : Takes (.str s) t (.str t)
  | custom {ok : Bytes → Bool} {last : Option Bytes} {t : Bytes} (h : ok t = true) : Takes (.custom ok last) t (.custom ok (some t))

/-- IgnoreUnknown is true in the end: its last pair says so, or there is none and it was set before. -/
def EndsIgnoring (before : Bool) (l : List (Bytes × Bytes)) : Prop :=
  (∃ v, LastMember l b!"IgnoreUnknown" v ∧ BoolText v true) ∨ (NoMember l b!"IgnoreUnknown" ∧ before = true)

end Verif.Spec
