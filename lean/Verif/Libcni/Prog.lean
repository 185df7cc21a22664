/-
The effects of the runtime library: programs that look up and execute plugins and use the cache directory, and what
they may do to the file system. The programs themselves (`Libcni/Cache.lean`, `Libcni/Api.lean`) follow the Go code
call by call; this file gives the calls their meaning.
-/
import Verif.Invoke.Args
import Verif.Base.Path

namespace Verif

/-- What implements pkg/invoke/args.go:23-29 `CNIArgs` when a plugin is executed: pkg/invoke/args.go:43-51 `Args`, or
pkg/invoke/args.go:92-94 `DelegateArgs`. -/
inductive PArgs where
  | args (a : Args)
  | delegate (command : Bytes)
  deriving DecidableEq, Inhabited

/-- The environment a plugin is given (`AsEnv` of pkg/invoke/args.go:23-29 `CNIArgs`). -/
def PArgs.env (enum : MapEnum) (environ : List Bytes) : PArgs → List Bytes
  | .args a => a.asEnv enum environ
  | .delegate c => delegateAsEnv enum environ c

/-- A call with an effect: the two plugin operations of pkg/invoke/exec.go:31-35 `Exec` (`find`, `exec`), and `os.ReadFile`,
`os.ReadDir`, `os.MkdirAll`, `os.WriteFile`, `os.Remove`. -/
inductive Act where
  | find (name : Bytes) (paths : List Bytes)
  | exec (path stdin : Bytes) (args : PArgs)
  | readFile (path : Bytes)
  | readDir (path : Bytes)
  | mkdirAll (path : Bytes)
  | writeFile (path content : Bytes)
  | remove (path : Bytes)
  deriving DecidableEq, Inhabited

/-- What a call returns. `find`: the plugin's path; `exec`: its standard output; `readDir`: the
names, or `error true` for "does not exist" and `error false` for any other error. The text of
file-system errors is not modelled. Semantics of the calls made by
libcni/api.go:515-530 `CNIConfig.AddNetworkList`, libcni/api.go:259-297 `CNIConfig.cacheAdd` and the rest of that file. -/
def Act.Resp : Act → Type
  | .find .. => Except GoErr Bytes
  | .exec .. => Except GoErr Bytes
  | .readFile _ => Option Bytes
  | .readDir _ => Except Bool (List Bytes)
  | .mkdirAll _ => Bool
  | .writeFile .. => Bool
  | .remove _ => Bool

/-- A Go function with effects: it ends, or makes a call and continues with the answer. Semantics of
the calls made by libcni/api.go:515-530 `CNIConfig.AddNetworkList`, libcni/api.go:259-297 `CNIConfig.cacheAdd` and the
rest of that file. -/
inductive Prog (α : Type) where
  | done (o : Out α)
  | op (a : Act) (k : a.Resp → Prog α)

namespace Prog

/-- Sequencing; an error or panic ends the whole (Go's `if err != nil { return …, err }`). E.g. in
libcni/api.go:515-530 `CNIConfig.AddNetworkList`. -/
def bind {α β : Type} : Prog α → (α → Prog β) → Prog β
  | done (.ok a), f => f a
  | done (.err e), _ => done (.err e)
  | done .panic, _ => done .panic
  | op a k, f => op a fun r => (k r).bind f

instance : Monad Prog where
  pure a := done (.ok a)
  bind := bind

/-- A computation without effects. Semantics of the calls made by
libcni/api.go:515-530 `CNIConfig.AddNetworkList`, libcni/api.go:259-297 `CNIConfig.cacheAdd` and the rest of that file. -/
def lift {α : Type} (o : Out α) : Prog α := done o

/-- Run the program and give its error, if any, as a value; a panic is still a panic. Semantics of
the calls made by libcni/api.go:515-530 `CNIConfig.AddNetworkList`, libcni/api.go:259-297 `CNIConfig.cacheAdd` and the
rest of that file. -/
def attempt {α : Type} : Prog α → Prog (Except GoErr α)
  | done (.ok a) => done (.ok (.ok a))
  | done (.err e) => done (.ok (.error e))
  | done .panic => done .panic
  | op a k => op a fun r => (k r).attempt

/-- Change the error, if there is one. Semantics of the calls made by
libcni/api.go:515-530 `CNIConfig.AddNetworkList`, libcni/api.go:259-297 `CNIConfig.cacheAdd` and the rest of that file. -/
def mapErr {α : Type} (f : GoErr → GoErr) : Prog α → Prog α
  | done (.ok a) => done (.ok a)
  | done (.err e) => done (.err (f e))
  | done .panic => done .panic
  | op a k => op a fun r => (k r).mapErr f

/-- One call. Semantics of the calls made by libcni/api.go:515-530 `CNIConfig.AddNetworkList`,
libcni/api.go:259-297 `CNIConfig.cacheAdd` and the rest of that file. -/
def call (a : Act) : Prog a.Resp := op a fun r => done (.ok r)

end Prog

/-- The regular files, by path. Semantics of the calls made by
libcni/api.go:515-530 `CNIConfig.AddNetworkList`, libcni/api.go:259-297 `CNIConfig.cacheAdd` and the rest of that file. -/
abbrev FS := Bytes → Option Bytes

/-- Semantics of the calls made by libcni/api.go:515-530 `CNIConfig.AddNetworkList`,
libcni/api.go:259-297 `CNIConfig.cacheAdd` and the rest of that file. -/
def FS.set (fs : FS) (p : Bytes) (c : Option Bytes) : FS := fun q => if q = p then c else fs q

/-- `names` is a directory listing: distinct names, all the regular files in the directory among
them (the other names are subdirectories and the like), in any order. Semantics of the calls made by
libcni/api.go:515-530 `CNIConfig.AddNetworkList`, libcni/api.go:259-297 `CNIConfig.cacheAdd` and the rest of that file.
-/
def FS.Lists (fs : FS) (dir : Bytes) (names : List Bytes) : Prop :=
  names.Nodup ∧ (∀ n ∈ names, IsComp n) ∧ ∀ n, IsComp n → fs (joinPath dir n) ≠ none → n ∈ names

/-- What a call may answer and do to the files. Plugins are found or not, and succeed or fail, at
will; they do not touch the cache. With `flt` any file operation may also fail, a failing write
leaving any prefix of the data or nothing changed. Without `flt` file operations succeed when they
can. Directories are not represented: `mkdirAll` is always possible. Semantics of the calls made by
libcni/api.go:515-530 `CNIConfig.AddNetworkList`, libcni/api.go:259-297 `CNIConfig.cacheAdd` and the rest of that file.
-/
inductive Step (flt : Bool) : FS → (a : Act) → a.Resp → FS → Prop
  | find (fs : FS) (n : Bytes) (ps : List Bytes) (r : Except GoErr Bytes) : Step flt fs (.find n ps) r fs
  | exec (fs : FS) (p i : Bytes) (a : PArgs) (r : Except GoErr Bytes) : Step flt fs (.exec p i a) r fs
  | readFile (fs : FS) (p : Bytes) : Step flt fs (.readFile p) (fs p) fs
  | readFileFails (fs : FS) (p : Bytes) (h : flt = true) : Step flt fs (.readFile p) (none : Option Bytes) fs
  | readDir (fs : FS) (p : Bytes) (ns : List Bytes) (h : fs.Lists p ns) :
      Step flt fs (.readDir p) (.ok ns : Except Bool (List Bytes)) fs
  | readDirMissing (fs : FS) (p : Bytes) (h : ∀ n, IsComp n → fs (joinPath p n) = none) :
      Step flt fs (.readDir p) (.error true : Except Bool (List Bytes)) fs
  | readDirFails (fs : FS) (p : Bytes) (b : Bool) (h : flt = true) :
      Step flt fs (.readDir p) (.error b : Except Bool (List Bytes)) fs
  | mkdirAll (fs : FS) (p : Bytes) : Step flt fs (.mkdirAll p) true fs
  | mkdirAllFails (fs : FS) (p : Bytes) (h : flt = true) : Step flt fs (.mkdirAll p) false fs
  | writeFile (fs : FS) (p c : Bytes) : Step flt fs (.writeFile p c) true (fs.set p (some c))
  | writeFileFails (fs : FS) (p c : Bytes) (h : flt = true) : Step flt fs (.writeFile p c) false fs
  | writeFileTorn (fs : FS) (p c : Bytes) (n : Nat) (h : flt = true) :
      Step flt fs (.writeFile p c) false (fs.set p (some (c.take n)))
  | remove (fs : FS) (p : Bytes) (h : fs p ≠ none) : Step flt fs (.remove p) true (fs.set p none)
  | removeMissing (fs : FS) (p : Bytes) (h : fs p = none) : Step flt fs (.remove p) false fs
  | removeFails (fs : FS) (p : Bytes) (h : flt = true) : Step flt fs (.remove p) false fs

/-- A call that was made and its answer. Semantics of the calls made by
libcni/api.go:515-530 `CNIConfig.AddNetworkList`, libcni/api.go:259-297 `CNIConfig.cacheAdd` and the rest of that file. -/
structure Event where
  act : Act
  resp : act.Resp

/-- Semantics of the calls made by libcni/api.go:515-530 `CNIConfig.AddNetworkList`,
libcni/api.go:259-297 `CNIConfig.cacheAdd` and the rest of that file. -/
abbrev Trace := List Event

/-- A complete run of a program: the calls made, the files afterwards and how it ended. Semantics of
the calls made by libcni/api.go:515-530 `CNIConfig.AddNetworkList`, libcni/api.go:259-297 `CNIConfig.cacheAdd` and the
rest of that file. -/
inductive Runs (flt : Bool) {α : Type} : Prog α → FS → Trace → FS → Out α → Prop
  | done (o : Out α) (fs : FS) : Runs flt (.done o) fs [] fs o
  | op {a : Act} {k : a.Resp → Prog α} {fs fs1 fs2 : FS} {r : a.Resp} {tr : Trace} {o : Out α}
      (hs : Step flt fs a r fs1) (hr : Runs flt (k r) fs1 tr fs2 o) : Runs flt (.op a k) fs (⟨a, r⟩ :: tr) fs2 o

/-- A program interrupted by a crash: after any number of its calls, or in the middle of a write.
The trace has the calls that were answered before the crash. Semantics of the calls made by
libcni/api.go:515-530 `CNIConfig.AddNetworkList`, libcni/api.go:259-297 `CNIConfig.cacheAdd` and the rest of that file.
-/
inductive Crash (flt : Bool) {α : Type} : Prog α → FS → Trace → FS → Prop
  | now (p : Prog α) (fs : FS) : Crash flt p fs [] fs
  | tear (p c : Bytes) (k : Bool → Prog α) (fs : FS) (n : Nat) :
      Crash flt (.op (.writeFile p c) k) fs [] (fs.set p (some (c.take n)))
  | step {a : Act} {k : a.Resp → Prog α} {fs fs1 fs2 : FS} {r : a.Resp} {tr : Trace}
      (hs : Step flt fs a r fs1) (hc : Crash flt (k r) fs1 tr fs2) : Crash flt (.op a k) fs (⟨a, r⟩ :: tr) fs2

/-- What a program does in one step of a concurrent run: a call, or writing the first bytes of the
data of its next call. Semantics of the calls made by libcni/api.go:515-530 `CNIConfig.AddNetworkList`,
libcni/api.go:259-297 `CNIConfig.cacheAdd` and the rest of that file. -/
inductive Move where
  | call (e : Event)
  | part (n : Nat)

/-- The call, if it is one. Observation of a run, e.g. of libcni/api.go:515-530 `CNIConfig.AddNetworkList`;
models no code. -/
def Move.event? : Move → Option Event
  | .call e => some e
  | .part _ => none

/-- Programs running concurrently, in any interleaving: at each step some program makes its next
call, or has written part of the data of the write it is about to complete. The list has the steps,
with the number of the program. The programs need not have ended. Semantics of the calls made by
libcni/api.go:515-530 `CNIConfig.AddNetworkList`, libcni/api.go:259-297 `CNIConfig.cacheAdd` and the rest of that file.
-/
inductive Inter (flt : Bool) {α : Type} : List (Prog α) → FS → List (Nat × Move) → List (Prog α) → FS → Prop
  | refl (ps : List (Prog α)) (fs : FS) : Inter flt ps fs [] ps fs
  | call {ps ps' : List (Prog α)} {i : Nat} {a : Act} {k : a.Resp → Prog α} {fs fs1 fs' : FS} {r : a.Resp} {l : List (Nat × Move)}
      (hi : ps[i]? = some (.op a k)) (hs : Step flt fs a r fs1) (h : Inter flt (ps.set i (k r)) fs1 l ps' fs') :
      Inter flt ps fs ((i, .call ⟨a, r⟩) :: l) ps' fs'
  | part {ps ps' : List (Prog α)} {i : Nat} {p c : Bytes} {k : Bool → Prog α} {fs fs' : FS} {l : List (Nat × Move)}
      (hi : ps[i]? = some (.op (.writeFile p c) k)) (n : Nat) (h : Inter flt ps (fs.set p (some (c.take n))) l ps' fs') :
      Inter flt ps fs ((i, .part n) :: l) ps' fs'

/-- An execution of a plugin, as seen from outside. Observation of a run, e.g. of
libcni/api.go:515-530 `CNIConfig.AddNetworkList`; models no code. -/
structure ExecEv where
  path : Bytes
  stdin : Bytes
  args : PArgs
  resp : Except GoErr Bytes

/-- A search for a plugin. Observation of a run, e.g. of libcni/api.go:515-530 `CNIConfig.AddNetworkList`;
models no code. -/
structure FindEv where
  name : Bytes
  paths : List Bytes
  resp : Except GoErr Bytes

/-- Observation of a run, e.g. of libcni/api.go:515-530 `CNIConfig.AddNetworkList`; models no code. -/
def Event.exec? : Event → Option ExecEv
  | ⟨.exec p i a, r⟩ => some ⟨p, i, a, r⟩
  | _ => none

/-- Observation of a run, e.g. of libcni/api.go:515-530 `CNIConfig.AddNetworkList`; models no code. -/
def Event.find? : Event → Option FindEv
  | ⟨.find n ps, r⟩ => some ⟨n, ps, r⟩
  | _ => none

/-- The plugin executions of a run, in order. Observation of a run, e.g. of
libcni/api.go:515-530 `CNIConfig.AddNetworkList`; models no code. -/
def Trace.execs (tr : Trace) : List ExecEv := tr.filterMap Event.exec?
/-- The plugin searches of a run, in order. Observation of a run, e.g. of
libcni/api.go:515-530 `CNIConfig.AddNetworkList`; models no code. -/
def Trace.finds (tr : Trace) : List FindEv := tr.filterMap Event.find?

end Verif
