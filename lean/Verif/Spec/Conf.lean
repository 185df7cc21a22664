/- What loading a network configuration must do, in terms of documents and directory listings only. -/
import Verif.Spec.AnyCase
import Verif.Spec.Stdin
import Verif.Spec.Version
import Verif.Spec.Decoded
import Verif.Libcni.Conf

namespace Verif.Spec

/-- The list's flag `key` reads as `f`: absent means false; otherwise a boolean, or "true"/"false" in any capitalisation. -/
def FlagIs (ms : List (Bytes × Json)) (key : Bytes) (f : Bool) : Prop :=
  (NoMember ms key ∧ f = false) ∨ LastMember ms key (.bool f) ∨
    ∃ s, LastMember ms key (.str s) ∧ AnyCase (if f then b!"true" else b!"false") s

/-- The declared `cniVersion`, empty if absent. -/
def DeclaredVersion (ms : List (Bytes × Json)) (v : Bytes) : Prop :=
  LastMember ms b!"cniVersion" (.str v) ∨ (NoMember ms b!"cniVersion" ∧ v = [])

/-- `v` is one of the declared versions (`vs` is the `cniVersions` array), reads as `p`, and is not newer than 1.1.0. -/
def Candidate (ms : List (Bytes × Json)) (vs : List Json) (v : Bytes) (p : Int × Int × Int) : Prop :=
  (.str v ∈ vs ∨ (v ≠ [] ∧ LastMember ms b!"cniVersion" (.str v))) ∧ Reads v p ∧ LexLe p (1, 1, 0)

/-- The version a list is loaded with: without `cniVersions` the declared one; with it, all entries must be well formed,
and it is a greatest candidate, or the declared one if there is no candidate. -/
def Selects (ms : List (Bytes × Json)) (v : Bytes) : Prop :=
  ∃ cv, DeclaredVersion ms cv ∧
    ((NoMember ms b!"cniVersions" ∧ v = cv) ∨
      ∃ vs, LastMember ms b!"cniVersions" (.arr vs) ∧ (∀ j ∈ vs, ∃ s p, j = .str s ∧ Reads s p) ∧
        (cv ≠ [] → ∃ p, Reads cv p) ∧
        ((∃ p, Candidate ms vs v p ∧ ∀ w q, Candidate ms vs w q → LexLe q p) ∨ (v = cv ∧ ∀ w q, ¬ Candidate ms vs w q)))

/-- The plugin configuration `p` is the one written as `j`: an object with the same members, decoded, with a type. -/
def PluginLoads (j : Json) (p : PluginConfig) : Prop :=
  ∃ ms M, j = .obj ms ∧ Json.parse p.bytes = some (.obj M) ∧ Injected ms [] M ∧
    decPluginConf (.obj M) = some p.network ∧ p.network.type ≠ []

/-- `L` is the list written as `b`. -/
def ListLoads (b : Bytes) (L : NetConfList) : Prop :=
  ∃ ms, Json.parse b = some (.obj ms) ∧ InRange (.obj ms) ∧
    LastMember ms b!"name" (.str L.name) ∧ Selects ms L.cniVersion ∧
    FlagIs ms b!"disableCheck" L.disableCheck ∧ FlagIs ms b!"disableGC" L.disableGC ∧
    FlagIs ms b!"loadOnlyInlinedPlugins" L.loadOnlyInlined ∧ L.bytes = b ∧
    ((NoMember ms b!"plugins" ∧ L.loadOnlyInlined = false ∧ L.plugins = []) ∨
      ∃ l, LastMember ms b!"plugins" (.arr l) ∧ l ≠ [] ∧ l.length = L.plugins.length ∧
        ∀ i (h : i < l.length) (h' : i < L.plugins.length), PluginLoads l[i] L.plugins[i])

/-- A sorter for version strings: a permutation in which, if all are well formed, none is greater than a later one.
(`slices.SortFunc` with the comparison of `NetworkConfFromBytes`.) -/
structure VersionSorter (sort : List Bytes → List Bytes) : Prop where
  perm : ∀ l, (sort l).Perm l
  sorted : ∀ l, (∀ v ∈ l, ∃ p, Reads v p) → (sort l).Pairwise fun a b => ∀ p q, Reads a p → Reads b q → LexLe p q

/-- `files` are the regular files of a directory with one of the given extensions, in byte order. -/
def SortedListing (entries : List (Bytes × Bool)) (dir : Bytes) (exts : List Bytes) (files : List Bytes) : Prop :=
  files.Perm ((entries.filter fun e => !e.2 && exts.contains (extPath e.1)).map fun e => joinPath dir e.1) ∧
    files.Pairwise fun a b => bytesLe a b = true

/-- Trying `files` in order: the outcome is the first that cannot be loaded or is a hit; `none` if there is no such file. -/
def FirstMatch {α : Type} (load : Bytes → Out α) (hit : α → Prop) (files : List Bytes) (r : Out (Option α)) : Prop :=
  ((∀ g ∈ files, ∃ c, load g = .ok c ∧ ¬ hit c) ∧ r = .ok none) ∨
    ∃ pre f post, files = pre ++ f :: post ∧ (∀ g ∈ pre, ∃ c, load g = .ok c ∧ ¬ hit c) ∧
      ((∃ c, load f = .ok c ∧ hit c ∧ r = .ok (some c)) ∨ (∃ e, load f = .err e ∧ r = .err e))

/-- The files a listing of `dir` offers; a directory that does not exist offers none. -/
def Offers (fs : ConfFS) (dir : Bytes) (exts files : List Bytes) : Prop :=
  (fs.readDir dir = .error true ∧ files = []) ∨ ∃ entries, fs.readDir dir = .ok entries ∧ SortedListing entries dir exts files

end Verif.Spec
