/-
What a copy is: the same value, in cells of its own.
-/
import Verif.Spec.Heap

namespace Verif.Spec

/-- Everything `x` consists of is in use, and address bytes are not something else at the same time. -/
structure Lives (v : View α β) (h : Heap) (x : α) : Prop where
  cells : ∀ a ∈ v.cells h x, a < h.next
  arrays : ∀ a ∈ v.arrays h x, a < h.next
  apart : ∀ a ∈ v.arrays h x, a ∉ v.cells h x

/-- `h2` is `h1` after anything was done to the structs, slices and integers `x` consists of in `h`, except overwriting the bytes of addresses
in place. -/
def ChangedOnly (v : View α β) (h : Heap) (x : α) (h1 h2 : Heap) : Prop := ∀ a, a < h1.next → a ∉ v.cells h x → h2.cell a = h1.cell a

/-- `x'`, in the heap `h'`, is a copy of `x`, in the heap `h`. -/
structure CopyOf (v : View α β) (h : Heap) (x : α) (h' : Heap) (x' : α) : Prop where
  /-- It has the same value. -/
  value : v.load h' x' = v.load h x
  /-- Making it changed nothing. -/
  keeps : ∀ a, a < h.next → h'.cell a = h.cell a
  /-- It is in order. -/
  lives : Lives v h' x'
  /-- It consists of new structs, slices and integers, -/
  fresh : ∀ a ∈ v.cells h' x', h.next ≤ a
  /-- and shares the bytes of the addresses. -/
  bytes : ∀ a ∈ v.arrays h' x', a ∈ v.arrays h x
  /-- Changing it does not change the original, -/
  original : ∀ h2, ChangedOnly v h' x' h' h2 → v.load h2 x = v.load h x
  /-- nor the other way round. -/
  copy : ∀ h2, ChangedOnly v h x h' h2 → v.load h2 x' = v.load h x

end Verif.Spec
