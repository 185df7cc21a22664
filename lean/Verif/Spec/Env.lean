/- Process environments: what an environment list says about a variable. -/
import Verif.Base.Bytes

namespace Verif.Spec

/-- The entry `e` is `k=v` (the name ends at the first `=`). -/
def Binds (e k v : Bytes) : Prop := e = k ++ 61 :: v ∧ 61 ∉ k

/-- `v` is the value of the last entry for `k` (the one a process gets when names are repeated). -/
def LastBinding (env : List Bytes) (k v : Bytes) : Prop :=
  ∃ a e b, env = a ++ e :: b ∧ Binds e k v ∧ ∀ x ∈ b, ∀ v', ¬ Binds x k v'

/-- `k` is set exactly once, to `v`. -/
def SetOnce (env : List Bytes) (k v : Bytes) : Prop :=
  ∃ a e b, env = a ++ e :: b ∧ Binds e k v ∧ (∀ x ∈ a ++ b, ∀ v', ¬ Binds x k v')

/-- `k` is not set. -/
def Unset (env : List Bytes) (k : Bytes) : Prop := ∀ e ∈ env, ∀ v, ¬ Binds e k v

/-- `out` is `base` with the variables in `over` overridden: each of those set exactly once as given, every
other variable of `base` set exactly once to its last value there, nothing else set, and the malformed entries
(without `=`) of `base` kept in order. -/
def Overrides (base : List Bytes) (over : List (Bytes × Bytes)) (out : List Bytes) : Prop :=
  (∀ k v, (k, v) ∈ over → SetOnce out k v) ∧
  (∀ k v, k ∉ over.map Prod.fst → LastBinding base k v → SetOnce out k v) ∧
  (∀ k, k ∉ over.map Prod.fst → Unset base k → Unset out k) ∧
  out.filter (fun e => 61 ∉ e) = base.filter (fun e => 61 ∉ e)

/-- Text of a CNI_ARGS pair list: no separators inside names and values. -/
def CleanPairs (l : List (Bytes × Bytes)) : Prop :=
  ∀ p ∈ l, 59 ∉ p.1 ∧ 61 ∉ p.1 ∧ 59 ∉ p.2 ∧ 61 ∉ p.2

/-- `K=V` pairs separated by `;`. -/
def pairsText : List (Bytes × Bytes) → Bytes
  | [] => []
  | [p] => p.1 ++ 61 :: p.2
  | p :: q :: l => (p.1 ++ 61 :: p.2) ++ 59 :: pairsText (q :: l)

end Verif.Spec
