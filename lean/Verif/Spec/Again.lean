/- Operations done several times. -/
import Verif.Spec.Gc

namespace Verif.Spec

/-- One operation done several times, one after the other, whatever the outcomes; what each did and how it ended. -/
inductive Tries (p : Prog Unit) : FS → List (Trace × Out Unit) → FS → Prop
  | nil (fs : FS) : Tries p fs [] fs
  | cons {fs fs1 fs2 : FS} {tr : Trace} {o : Out Unit} {l : List (Trace × Out Unit)}
      (h : Runs false p fs tr fs1 o) (hl : Tries p fs1 l fs2) : Tries p fs ((tr, o) :: l) fs2

/-- One of the tries before the `i`-th was successful. -/
def DoneBefore (l : List (Trace × Out Unit)) (i : Nat) : Prop := ∃ j tr, j < i ∧ l[j]? = some (tr, .ok ())

end Verif.Spec
