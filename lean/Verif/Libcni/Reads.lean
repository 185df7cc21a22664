/- Files that are read in pieces, too. -/
import Verif.Libcni.Posix

namespace Verif

/-- An open file: for writing, with the position reached; for reading, with what has been read so far. Operating system, as used by
os.WriteFile in libcni/api.go:259-297 `CNIConfig.cacheAdd` and os.ReadFile in libcni/api.go:366-402 `CNIConfig.getCachedResult`. -/
inductive Handle where
  | wr (file off : Nat)
  | rd (file : Nat) (got : Bytes)

/-- The file a handle is of. Operating system, as used by libcni/api.go:259-297 `CNIConfig.cacheAdd`. -/
def Handle.file : Handle → Nat
  | .wr n _ => n
  | .rd n _ => n

/-- Programs, the file each has open, the disk, and the names each has missed in the directory it is listing. Operating system, as used by
libcni/api.go:259-297 `CNIConfig.cacheAdd` and os.ReadDir in libcni/api.go:430-488 `CNIConfig.GetCachedAttachments`. -/
structure Sys (α : Type) where
  ps : List (Prog α)
  hs : Nat → Option Handle
  d : Disk
  ls : Nat → List Bytes

/-- What a program does in one step: a call that is done at once, or the end of a write, a reading or a listing (after which the call has been
answered); opening a file for writing, writing some bytes, opening a file for reading, reading some bytes, going past the place where a name
that does not exist would be in a directory. Operating system, as used by
libcni/api.go:259-297 `CNIConfig.cacheAdd` and libcni/api.go:366-402 `CNIConfig.getCachedResult`. -/
inductive RMove where
  | call (e : Event)
  | opened
  | wrote (n : Nat)
  | looked
  | got (n : Nat)
  | missed (n : Bytes)

/-- The names that one program has missed change. Operating system, as used by libcni/api.go:430-488 `CNIConfig.GetCachedAttachments`. -/
def setMissed (ls : Nat → List Bytes) (i : Nat) (l : List Bytes) : Nat → List Bytes := fun j => if j = i then l else ls j

/-- The handle of one program changes. Operating system, as used by libcni/api.go:259-297 `CNIConfig.cacheAdd`. -/
def setHandle (hs : Nat → Option Handle) (i : Nat) (h : Option Handle) : Nat → Option Handle := fun j => if j = i then h else hs j

/-- One step of one program, with os.WriteFile and os.ReadFile as what they are: the file is opened, which creates or empties it if it is for
writing; then written, or read, in any number of pieces, each at the position this program has reached; a reading ends when there is
nothing more at that position. Others may remove the name, write or read meanwhile; if `calm`, a file is not opened for writing while
another program has it open. A directory is listed piece by piece, too: a file that exists all the time is listed, one that was made or removed
meanwhile may or may not be. Files do not fail. Semantics of the calls made by
libcni/api.go:259-297 `CNIConfig.cacheAdd`, libcni/api.go:299-306 `CNIConfig.cacheDel`, libcni/api.go:366-402 `CNIConfig.getCachedResult`
and libcni/api.go:430-488 `CNIConfig.GetCachedAttachments`. -/
inductive Tick (calm : Bool) {α : Type} : Sys α → Nat → RMove → Sys α → Prop
  /-- A call that neither changes nor reads a file or directory. -/
  | call {s : Sys α} {i : Nat} {a : Act} {k : a.Resp → Prog α} {r : a.Resp} (hi : s.ps[i]? = some (.op a k))
      (hs : Step false s.d.files a r s.d.files) (hw : ∀ p c, a ≠ .writeFile p c) (hr : ∀ p, a ≠ .readFile p)
      (hd : ∀ p, a ≠ .readDir p) :
      Tick calm s i (.call ⟨a, r⟩) { s with ps := s.ps.set i (k r) }
  | removed {s : Sys α} {i : Nat} {p : Bytes} {k : Bool → Prog α} (hi : s.ps[i]? = some (.op (.remove p) k)) (hn : s.d.name p ≠ none) :
      Tick calm s i (.call ⟨.remove p, true⟩) { s with ps := s.ps.set i (k true), d := s.d.unlinked p }
  | opened {s : Sys α} {i : Nat} {p c : Bytes} {k : Bool → Prog α} (hi : s.ps[i]? = some (.op (.writeFile p c) k)) (hh : s.hs i = none)
      (hc : calm = true → ∀ j h, s.hs j = some h → s.d.name p ≠ some h.file) :
      Tick calm s i .opened { s with hs := setHandle s.hs i (some (.wr (s.d.opened p).1 0)), d := (s.d.opened p).2 }
  | wrote {s : Sys α} {i : Nat} {p c : Bytes} {k : Bool → Prog α} {f off : Nat} (hi : s.ps[i]? = some (.op (.writeFile p c) k))
      (hh : s.hs i = some (.wr f off)) (n : Nat) (hn : off + n ≤ c.length) :
      Tick calm s i (.wrote n)
        { s with hs := setHandle s.hs i (some (.wr f (off + n))), d := s.d.written f off ((c.drop off).take n) }
  | closed {s : Sys α} {i : Nat} {p c : Bytes} {k : Bool → Prog α} {f : Nat} (hi : s.ps[i]? = some (.op (.writeFile p c) k))
      (hh : s.hs i = some (.wr f c.length)) :
      Tick calm s i (.call ⟨.writeFile p c, true⟩) { s with ps := s.ps.set i (k true), hs := setHandle s.hs i none }
  /-- There is no such file. -/
  | absent {s : Sys α} {i : Nat} {p : Bytes} {k : Option Bytes → Prog α} (hi : s.ps[i]? = some (.op (.readFile p) k)) (hh : s.hs i = none)
      (hn : s.d.name p = none) :
      Tick calm s i (.call ⟨.readFile p, (none : Option Bytes)⟩) { s with ps := s.ps.set i (k none) }
  | looked {s : Sys α} {i : Nat} {p : Bytes} {k : Option Bytes → Prog α} {f : Nat} (hi : s.ps[i]? = some (.op (.readFile p) k))
      (hh : s.hs i = none) (hn : s.d.name p = some f) :
      Tick calm s i .looked { s with hs := setHandle s.hs i (some (.rd f [])) }
  | got {s : Sys α} {i : Nat} {p : Bytes} {k : Option Bytes → Prog α} {f : Nat} {b : Bytes} (hi : s.ps[i]? = some (.op (.readFile p) k))
      (hh : s.hs i = some (.rd f b)) (n : Nat) :
      Tick calm s i (.got n) { s with hs := setHandle s.hs i (some (.rd f (b ++ ((s.d.data f).drop b.length).take n))) }
  | ended {s : Sys α} {i : Nat} {p : Bytes} {k : Option Bytes → Prog α} {f : Nat} {b : Bytes} (hi : s.ps[i]? = some (.op (.readFile p) k))
      (hh : s.hs i = some (.rd f b)) (he : (s.d.data f).length ≤ b.length) :
      Tick calm s i (.call ⟨.readFile p, some b⟩) { s with ps := s.ps.set i (k (some b)), hs := setHandle s.hs i none }
  /-- There is no such directory, and so no file in it. -/
  | nodir {s : Sys α} {i : Nat} {p : Bytes} {k : Except Bool (List Bytes) → Prog α} (hi : s.ps[i]? = some (.op (.readDir p) k))
      (hl : s.ls i = []) (hn : ∀ n, IsComp n → s.d.name (joinPath p n) = none) :
      Tick calm s i (.call ⟨.readDir p, (.error true : Except Bool (List Bytes))⟩) { s with ps := s.ps.set i (k (.error true)) }
  | missed {s : Sys α} {i : Nat} {p : Bytes} {k : Except Bool (List Bytes) → Prog α} (hi : s.ps[i]? = some (.op (.readDir p) k)) (n : Bytes)
      (hn : s.d.name (joinPath p n) = none) :
      Tick calm s i (.missed n) { s with ls := setMissed s.ls i (n :: s.ls i) }
  /-- Every file there is now, but for those missed, is among the names; others may be, such as files removed meanwhile and subdirectories. -/
  | listed {s : Sys α} {i : Nat} {p : Bytes} {k : Except Bool (List Bytes) → Prog α} {ns : List Bytes} (hi : s.ps[i]? = some (.op (.readDir p) k))
      (hc : ∀ n ∈ ns, IsComp n) (hn : ∀ n, IsComp n → s.d.name (joinPath p n) ≠ none → n ∈ ns ∨ n ∈ s.ls i) :
      Tick calm s i (.call ⟨.readDir p, (.ok ns : Except Bool (List Bytes))⟩) { s with ps := s.ps.set i (k (.ok ns)), ls := setMissed s.ls i [] }

/-- Any number of steps. Semantics of the calls made by libcni/api.go:259-297 `CNIConfig.cacheAdd` and the rest of that file. -/
inductive Ticks (calm : Bool) {α : Type} : Sys α → List (Nat × RMove) → Sys α → Prop
  | refl (s : Sys α) : Ticks calm s [] s
  | step {s s1 s' : Sys α} {i : Nat} {m : RMove} {l : List (Nat × RMove)} (ht : Tick calm s i m s1) (h : Ticks calm s1 l s') :
      Ticks calm s ((i, m) :: l) s'

end Verif
