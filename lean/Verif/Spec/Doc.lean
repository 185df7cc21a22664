/- Reading documents: what an object says about a key. Independent of the decoders. -/
import Verif.Json.Json

namespace Verif.Spec

/-- `v` is the value of the last member named `k` (the one Go keeps when a key is repeated). -/
def LastMember {α : Type} (ms : List (Bytes × α)) (k : Bytes) (v : α) : Prop :=
  ∃ a b, ms = a ++ (k, v) :: b ∧ ∀ m ∈ b, m.1 ≠ k

/-- No member is named `k`. -/
def NoMember {α : Type} (ms : List (Bytes × α)) (k : Bytes) : Prop := ∀ m ∈ ms, m.1 ≠ k

end Verif.Spec
