/- Go error values and function outcomes. -/
import Verif.Base.Bytes

namespace Verif

/-- pkg/types/types.go:247-251 `Error`. -/
structure CniErr where
  code : Nat
  msg : Bytes
  details : Bytes := []
  deriving DecidableEq, Repr, Inhabited

/-- An `error` value. `cni` is a `*types.Error`; `text` any other leaf error (its message); `wrap`
is `fmt.Errorf("pre: %w", e)`; `joined` is `errors.Join`. The errors of all modelled code;
`*types.Error` is pkg/types/types.go:247-251 `Error`, the joined ones come from
libcni/api.go:770-842 `CNIConfig.GCNetworkList`. -/
inductive GoErr where
  | cni (e : CniErr)
  | text (s : Bytes)
  | wrap (pre : Bytes) (e : GoErr)
  | joined (es : List GoErr)
  deriving Inhabited

mutual
/-- `errors.As(err, &cniErr)`: the first `*types.Error` in the tree, depth first. Used by
pkg/skel/skel.go:190-214 `dispatcher.checkVersionAndCall`. -/
def GoErr.asCni : GoErr → Option CniErr
  | .cni e => some e
  | .text _ => none
  | .wrap _ e => e.asCni
  | .joined es => GoErr.asCniL es
/-- `errors.As` over the members of an `errors.Join` (libcni/api.go:770-842 `CNIConfig.GCNetworkList`). -/
def GoErr.asCniL : List GoErr → Option CniErr
  | [] => none
  | e :: es => match e.asCni with
    | some c => some c
    | none => GoErr.asCniL es
end

mutual
/-- `err.Error()`; pkg/types/types.go:261-267 `Error.Error` for a CNI error. -/
def GoErr.msg : GoErr → Bytes
  | .cni e => e.msg ++ (if e.details = [] then [] else b!"; " ++ e.details)
  | .text s => s
  | .wrap p e => p ++ b!": " ++ e.msg
  | .joined es => GoErr.msgL es
/-- `Error` of an `errors.Join` (libcni/api.go:770-842 `CNIConfig.GCNetworkList`): the messages, one per line.
-/
def GoErr.msgL : List GoErr → Bytes
  | [] => []
  | [e] => e.msg
  | e :: e' :: es => e.msg ++ [10] ++ GoErr.msgL (e' :: es)
end

/-- How a Go call ends: a value, an error, or a run-time panic. The `(value, error)` results of all
modelled code, e.g. libcni/api.go:515-530 `CNIConfig.AddNetworkList`. -/
inductive Out (α : Type) where
  | ok (a : α)
  | err (e : GoErr)
  | panic
  deriving Inhabited

namespace Out

/-- Go's `if err != nil { return …, err }`, e.g. in libcni/conf.go:392-417 `InjectConf`. -/
def bind {α β : Type} : Out α → (α → Out β) → Out β
  | ok a, f => f a
  | err e, _ => err e
  | panic, _ => panic

instance : Monad Out where
  pure := ok
  bind := bind

@[simp] theorem pure_eq {α : Type} (a : α) : (pure a : Out α) = ok a := rfl
@[simp] theorem bind_ok {α β : Type} (a : α) (f : α → Out β) : (ok a >>= f) = f a := rfl
@[simp] theorem bind_err {α β : Type} (e : GoErr) (f : α → Out β) : ((err e : Out α) >>= f) = err e := rfl
@[simp] theorem bind_panic {α β : Type} (f : α → Out β) : ((panic : Out α) >>= f) = panic := rfl

/-- An error with message `m` when the option is empty. Go's `if err != nil { return …, err }`, e.g.
in libcni/conf.go:392-417 `InjectConf`. -/
def ofOption {α : Type} (m : Bytes) : Option α → Out α
  | some a => ok a
  | none => err (.text m)

@[simp] theorem ofOption_some {α : Type} (m : Bytes) (a : α) : ofOption m (some a) = ok a := rfl
@[simp] theorem ofOption_none {α : Type} (m : Bytes) : ofOption m (none : Option α) = err (.text m) := rfl

/-- Wrap the error, if any. Go's `fmt.Errorf("…: %w", err)`, e.g. in
libcni/api.go:515-530 `CNIConfig.AddNetworkList`. -/
def wrapErr {α : Type} (p : Bytes) : Out α → Out α
  | err e => err (.wrap p e)
  | o => o

/-- The value, if there is one. Proof device: models no code. -/
def toOption {α : Type} : Out α → Option α
  | ok a => some a
  | _ => none

/-- Proof device: models no code. -/
def isOk {α : Type} : Out α → Bool
  | ok _ => true
  | _ => false

end Out

end Verif
