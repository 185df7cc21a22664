/- What a caller finds in an error. -/
import Verif.Base.Err

namespace Verif.Spec

/-- The error `g` is in the error `e`: it is `e`, or `e` is a description in front of an error it is in, or a collection of
errors with one it is in (what unwrapping finds). -/
inductive Within (g : GoErr) : GoErr → Prop
  | here : Within g g
  | wrap {pre : Bytes} {e : GoErr} (h : Within g e) : Within g (.wrap pre e)
  | joined {e : GoErr} {es : List GoErr} (hm : e ∈ es) (h : Within g e) : Within g (.joined es)

/-- The call failed, with an error in which `errors.As` finds the CNI error `ce`. -/
def FailedWith {α : Type} (o : Out α) (ce : CniErr) : Prop := ∃ g, o = .err g ∧ g.asCni = some ce

/-- The call failed, with an error that has the CNI error `ce` in it. -/
def FailureHas {α : Type} (o : Out α) (ce : CniErr) : Prop := ∃ g, o = .err g ∧ Within (.cni ce) g

end Verif.Spec
