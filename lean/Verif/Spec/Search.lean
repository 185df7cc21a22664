/- Where plugins are looked for. -/
import Verif.Base.Path

namespace Verif.Spec

/-- The files that a plugin called `name` may be, in the order of preference: those in the first directory come first, and in each
directory those with the first extension. -/
def candidates (exts paths : List Bytes) (name : Bytes) : List Bytes :=
  paths.flatMap fun d => exts.map fun x => joinPath d name ++ x

/-- `p` is the first candidate that is a regular file, for a name that is not empty and has no separator in it. -/
structure FoundFirst (exts : List Bytes) (isRegular : Bytes → Bool) (name : Bytes) (paths : List Bytes) (p : Bytes) : Prop where
  named : name ≠ []
  plain : 47 ∉ name
  first : ∃ before after, candidates exts paths name = before ++ p :: after ∧ isRegular p = true ∧ ∀ q ∈ before, isRegular q = false

end Verif.Spec
