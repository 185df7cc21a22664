/-
The `Copy` methods that plugins call on the parts of a result: pointers in, pointers out.
-/
import Verif.Types.Heap

namespace Verif

/-- The addresses of cells. -/
local notation "Addr" => Nat

/-- The `if i == nil { return nil }` at the head of the `Copy` methods, e.g. pkg/types/types.go:204-229 `Route.Copy`. -/
def copyPtr (f : Addr → HM Addr) : Option Addr → HM (Option Addr)
  | none => pure none
  | some a => do
    let b ← f a
    pure (some b)

/-- pkg/types/100/types.go:283-289 `Interface.Copy`. -/
def copyIntf100 (a : Addr) : HM Addr := do
  let i ← look fun h => h.intf100 a
  alloc (.intf100 i)

/-- pkg/types/100/types.go:309-323 `IPConfig.Copy`. -/
def copyIp100 (a : Addr) : HM Addr := do
  let i ← look fun h => h.ip100 a
  let x ← copyInt i.interface
  alloc (.ip100 { interface := x, ip := i.ip, mask := i.mask, gateway := i.gateway })

end Verif
