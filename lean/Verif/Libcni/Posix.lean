/- Files as the operating system keeps them: directory entries, file contents and open files. -/
import Verif.Libcni.Prog

namespace Verif

/-- The disk: which file a name stands for, and what is in the files. Proof device for the calls of os.WriteFile, os.Remove and
os.ReadFile made by libcni/api.go:259-297 `CNIConfig.cacheAdd`, libcni/api.go:299-306 `CNIConfig.cacheDel` and
libcni/api.go:366-402 `CNIConfig.getCachedResult`. -/
structure Disk where
  name : Bytes → Option Nat
  data : Nat → Bytes
  /-- Files from this number on do not exist yet. -/
  next : Nat

/-- The contents by name. Operating system, as used by libcni/api.go:259-297 `CNIConfig.cacheAdd`. -/
def Disk.files (d : Disk) : FS := fun p => (d.name p).map d.data

/-- No file has two names, and those that have one exist. Operating system, as used by
libcni/api.go:259-297 `CNIConfig.cacheAdd`. -/
structure Disk.OK (d : Disk) : Prop where
  one : ∀ p q n, d.name p = some n → d.name q = some n → p = q
  old : ∀ p n, d.name p = some n → n < d.next

/-- Writing `s` into `b` at position `off`; a gap is filled with zeros. Operating system, as used by os.WriteFile in
libcni/api.go:259-297 `CNIConfig.cacheAdd`. -/
def overlay (b : Bytes) (off : Nat) (s : Bytes) : Bytes :=
  b.take off ++ List.replicate (off - b.length) 0 ++ s ++ b.drop (off + s.length)

/-- An open file and the position reached in it. Operating system, as used by os.WriteFile in
libcni/api.go:259-297 `CNIConfig.cacheAdd`. -/
structure Fd where
  file : Nat
  off : Nat
  deriving DecidableEq

/-- The file created or emptied by opening it for writing. Operating system, as used by os.WriteFile in
libcni/api.go:259-297 `CNIConfig.cacheAdd`. -/
def Disk.opened (d : Disk) (p : Bytes) : Nat × Disk :=
  match d.name p with
  | some n => (n, { d with data := fun m => if m = n then [] else d.data m })
  | none => (d.next, { name := fun q => if q = p then some d.next else d.name q,
                       data := fun m => if m = d.next then [] else d.data m, next := d.next + 1 })

/-- Writing to an open file. Operating system, as used by os.WriteFile in
libcni/api.go:259-297 `CNIConfig.cacheAdd`. -/
def Disk.written (d : Disk) (n off : Nat) (s : Bytes) : Disk :=
  { d with data := fun m => if m = n then overlay (d.data m) off s else d.data m }

/-- Removing a name; the file stays for those who have it open. Operating system, as used by os.Remove in
libcni/api.go:299-306 `CNIConfig.cacheDel`. -/
def Disk.unlinked (d : Disk) (p : Bytes) : Disk := { d with name := fun q => if q = p then none else d.name q }

/-- What a program does in one step: a call that is done at once, or a part of a write: opening the file, writing some bytes,
closing it (after which the call has been answered). Operating system, as used by
libcni/api.go:259-297 `CNIConfig.cacheAdd`. -/
inductive FMove where
  | call (e : Event)
  | opened
  | wrote (n : Nat)

/-- Programs running concurrently, with os.WriteFile as what it is: the file is opened, which creates or empties it, then
written, in any number of pieces, each at the position this program has reached, then closed. The name may be removed meanwhile;
another program may open the same file meanwhile, unless `excl`. Files do not fail; reading a file or directory is one step. Semantics
of the calls made by libcni/api.go:259-297 `CNIConfig.cacheAdd`, libcni/api.go:299-306 `CNIConfig.cacheDel` and the rest of that file. -/
inductive Fine (excl : Bool) {α : Type} :
    List (Prog α) → (Nat → Option Fd) → Disk → List (Nat × FMove) → List (Prog α) → (Nat → Option Fd) → Disk → Prop
  | refl (ps : List (Prog α)) (fds : Nat → Option Fd) (d : Disk) : Fine excl ps fds d [] ps fds d
  /-- A call that changes no file. -/
  | call {ps ps' : List (Prog α)} {fds fds' : Nat → Option Fd} {d d' : Disk} {i : Nat} {a : Act} {k : a.Resp → Prog α} {r : a.Resp}
      {l : List (Nat × FMove)} (hi : ps[i]? = some (.op a k)) (hs : Step false d.files a r d.files) (hw : ∀ p c, a ≠ .writeFile p c)
      (h : Fine excl (ps.set i (k r)) fds d l ps' fds' d') : Fine excl ps fds d ((i, .call ⟨a, r⟩) :: l) ps' fds' d'
  | removed {ps ps' : List (Prog α)} {fds fds' : Nat → Option Fd} {d d' : Disk} {i : Nat} {p : Bytes} {k : Bool → Prog α}
      {l : List (Nat × FMove)} (hi : ps[i]? = some (.op (.remove p) k)) (hn : d.name p ≠ none)
      (h : Fine excl (ps.set i (k true)) fds (d.unlinked p) l ps' fds' d') :
      Fine excl ps fds d ((i, .call ⟨.remove p, true⟩) :: l) ps' fds' d'
  | opened {ps ps' : List (Prog α)} {fds fds' : Nat → Option Fd} {d d' : Disk} {i : Nat} {p c : Bytes} {k : Bool → Prog α}
      {l : List (Nat × FMove)} (hi : ps[i]? = some (.op (.writeFile p c) k)) (hf : fds i = none)
      (he : excl = true → ∀ j fd, fds j = some fd → d.name p ≠ some fd.file)
      (h : Fine excl ps (fun j => if j = i then some ⟨(d.opened p).1, 0⟩ else fds j) (d.opened p).2 l ps' fds' d') :
      Fine excl ps fds d ((i, .opened) :: l) ps' fds' d'
  | wrote {ps ps' : List (Prog α)} {fds fds' : Nat → Option Fd} {d d' : Disk} {i : Nat} {p c : Bytes} {k : Bool → Prog α} {fd : Fd}
      {l : List (Nat × FMove)} (hi : ps[i]? = some (.op (.writeFile p c) k)) (hf : fds i = some fd) (n : Nat) (hn : fd.off + n ≤ c.length)
      (h : Fine excl ps (fun j => if j = i then some ⟨fd.file, fd.off + n⟩ else fds j) (d.written fd.file fd.off ((c.drop fd.off).take n)) l
        ps' fds' d') :
      Fine excl ps fds d ((i, .wrote n) :: l) ps' fds' d'
  | closed {ps ps' : List (Prog α)} {fds fds' : Nat → Option Fd} {d d' : Disk} {i : Nat} {p c : Bytes} {k : Bool → Prog α} {fd : Fd}
      {l : List (Nat × FMove)} (hi : ps[i]? = some (.op (.writeFile p c) k)) (hf : fds i = some fd) (ho : fd.off = c.length)
      (h : Fine excl (ps.set i (k true)) (fun j => if j = i then none else fds j) d l ps' fds' d') :
      Fine excl ps fds d ((i, .call ⟨.writeFile p c, true⟩) :: l) ps' fds' d'

end Verif
