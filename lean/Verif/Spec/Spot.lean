/-
Where a path leads, as far as its text tells (symbolic links apart). Models no code.
-/
import Verif.Base.Bytes

namespace Verif.Spec

/-- A spot: below the root or relative to the working directory; for the latter, so many levels above it; and the
directories entered from there, outermost first. -/
structure Spot where
  rooted : Bool
  above : Nat
  down : List Bytes
  deriving DecidableEq

/-- What one part of a path does: nothing, for no text or one dot; two dots leave the directory entered last, and when
none is left they stay at the root or go one level further up; any other text enters the directory of that name. -/
inductive Follow : Spot → Bytes → Spot → Prop
  | stay (p : Spot) (c : Bytes) (h : c = [] ∨ c = b!".") : Follow p c p
  | enter (p : Spot) (c : Bytes) (h : c ≠ [] ∧ c ≠ b!"." ∧ c ≠ b!"..") : Follow p c { p with down := p.down ++ [c] }
  | leave (r : Bool) (n : Nat) (ds : List Bytes) (d : Bytes) : Follow ⟨r, n, ds ++ [d]⟩ b!".." ⟨r, n, ds⟩
  | atRoot (n : Nat) : Follow ⟨true, n, []⟩ b!".." ⟨true, n, []⟩
  | further (n : Nat) : Follow ⟨false, n, []⟩ b!".." ⟨false, n + 1, []⟩

/-- The parts of a path followed one after the other. -/
inductive FollowAll : Spot → List Bytes → Spot → Prop
  | none (p : Spot) : FollowAll p [] p
  | one {p q r : Spot} {c : Bytes} {cs : List Bytes} (h : Follow p c q) (t : FollowAll q cs r) : FollowAll p (c :: cs) r

/-- The path `s` leads to the spot `p`: its parts, which slashes separate, are followed from the root if it begins with
a slash, and from the working directory otherwise. -/
def LeadsTo (s : Bytes) (p : Spot) : Prop :=
  ∃ cs : List Bytes, (∀ c ∈ cs, (47 : UInt8) ∉ c) ∧ cs ≠ [] ∧ s = joinWith b!"/" cs ∧ FollowAll ⟨s.head? = some 47, 0, []⟩ cs p

/-- Both paths lead to the same spot. -/
def SameSpot (s t : Bytes) : Prop := ∃ p, LeadsTo s p ∧ LeadsTo t p

/-- The spot named `n` in the directory `p`. -/
def Spot.child (p : Spot) (n : Bytes) : Spot := { p with down := p.down ++ [n] }

/-- `e` is the extension of the name `f`: what follows the last dot of its last part, with the dot; nothing if there is no dot in that part. -/
def HasExt (f e : Bytes) : Prop :=
  (∃ a t, f = a ++ 46 :: t ∧ (46 : UInt8) ∉ t ∧ (47 : UInt8) ∉ t ∧ e = 46 :: t) ∨ (e = [] ∧ ∀ a t, f = a ++ 46 :: t → (47 : UInt8) ∈ t)

end Verif.Spec
