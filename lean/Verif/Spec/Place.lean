/- Places inside a document. -/
import Verif.Spec.Doc
import Verif.Json.Num
import Verif.Spec.Float

namespace Verif.Spec

/-- A step into a document: to a key of an object, or to an index of an array. -/
inductive Place where
  | key (k : Bytes)
  | idx (i : Nat)

/-- `v` is the value at the end of the path. Of a repeated key the last member counts. -/
def ValueAt (j : Json) : List Place → Json → Prop
  | [], v => v = j
  | .key k :: path, v => ∃ ms x, j = .obj ms ∧ LastMember ms k x ∧ ValueAt x path v
  | .idx i :: path, v => ∃ l x, j = .arr l ∧ l[i]? = some x ∧ ValueAt x path v

/-- The keys of a plugin's configuration that the runtime may set. -/
def runtimeKeys : List Bytes :=
  [b!"name", b!"cniVersion", b!"prevResult", b!"runtimeConfig", b!"cni.dev/valid-attachments", b!"cni.dev/attachments"]

/-- The number written `lit'` is what the number written `lit` is allowed to become: it has the same nearest double, and if `lit` is an
integer of at most 2^53 it is still written the same way. -/
structure SameNumber (lit lit' : Bytes) : Prop where
  float : SameDouble lit lit'
  integer : ∀ n : Int, n.natAbs ≤ 2 ^ 53 → lit = itoa n → lit' = itoa n

end Verif.Spec
