/-
The functions plugin authors use to get a result of a particular Go type: `GetResult` and `NewResultFromResult` of the three
result packages, and the registration of the converters at package initialisation. A nil `types.Result` is not modelled.
-/
import Verif.Types.Results

namespace Verif

/-- pkg/types/020/types.go:64-74 `GetResult`. -/
def getResult020 (r : Result) : Out R020 :=
  match convert r b!"0.2.0" with
  | .ok (.v020 x) => .ok x
  | .ok _ => .err (.text b!"failed to convert result")
  | .err e => .err e
  | .panic => .panic

/-- pkg/types/040/types.go:65-75 `GetResult`. -/
def getResult040 (r : Result) : Out R040 :=
  match r.getAsVersion b!"0.4.0" with
  | .ok (.v040 x) => .ok x
  | .ok _ => .err (.text b!"failed to convert result")
  | .err e => .err e
  | .panic => .panic

/-- pkg/types/100/types.go:69-79 `GetResult`. -/
def getResult100 (r : Result) : Out R100 :=
  match r.getAsVersion b!"1.1.0" with
  | .ok (.v100 x) => .ok x
  | .ok _ => .err (.text b!"failed to convert result")
  | .err e => .err e
  | .panic => .panic

/-- pkg/types/040/types.go:77-83 `NewResultFromResult`: the type assertion panics. -/
def newResultFromResult040 (r : Result) : Out R040 :=
  match convert r b!"0.4.0" with
  | .ok (.v040 x) => .ok x
  | .ok _ => .panic
  | .err e => .err e
  | .panic => .panic

/-- pkg/types/100/types.go:81-87 `NewResultFromResult`: the type assertion panics. -/
def newResultFromResult100 (r : Result) : Out R100 :=
  match convert r b!"1.1.0" with
  | .ok (.v100 x) => .ok x
  | .ok _ => .panic
  | .err e => .err e
  | .panic => .panic

/-! ### registration -/

/-- pkg/types/internal/convert.go:78-92 `RegisterConverter`: panics if there is a converter for one of the pairs already. -/
def registerConverter (table : List (Bytes × List Bytes × Conv)) (row : Bytes × List Bytes × Conv) : Out (List (Bytes × List Bytes × Conv)) :=
  if row.2.1.any fun v => (table.find? fun c => c.1 = row.1 ∧ v ∈ c.2.1).isSome then .panic else .ok (table ++ [row])

/-- pkg/types/internal/create.go:55-66 `RegisterCreator`: panics if there is a creator for one of the versions already. The creators are
given by the version lists they are registered for. -/
def registerCreator (table : List (List Bytes)) (row : List Bytes) : Out (List (List Bytes)) :=
  if row.any fun v => (table.find? fun c => v ∈ c).isSome then .panic else .ok (table ++ [row])

end Verif
