/- Running a program for concrete examples: plugins and files as functions. -/
import Verif.Libcni.ProgLemmas

namespace Verif

/-- Run a program that does not list directories, with the given plugins. Used in examples only.
Proof device: models no code. -/
def Prog.interp {α : Type} (find : Bytes → Except GoErr Bytes) (exec : Bytes → Bytes → PArgs → Except GoErr Bytes) :
    Prog α → FS → Option (Trace × FS × Out α)
  | .done o, fs => some ([], fs, o)
  | .op (.find n ps) k, fs => ((k (find n)).interp find exec fs).map fun x => (⟨.find n ps, find n⟩ :: x.1, x.2)
  | .op (.exec p i a) k, fs => ((k (exec p i a)).interp find exec fs).map fun x => (⟨.exec p i a, exec p i a⟩ :: x.1, x.2)
  | .op (.readFile p) k, fs => ((k (fs p)).interp find exec fs).map fun x => (⟨.readFile p, fs p⟩ :: x.1, x.2)
  | .op (.readDir _) _, _ => none
  | .op (.mkdirAll p) k, fs => ((k true).interp find exec fs).map fun x => (⟨.mkdirAll p, true⟩ :: x.1, x.2)
  | .op (.writeFile p c) k, fs =>
    ((k true).interp find exec (fs.set p (some c))).map fun x => (⟨.writeFile p c, true⟩ :: x.1, x.2)
  | .op (.remove p) k, fs =>
    match fs p with
    | some _ => ((k true).interp find exec (fs.set p none)).map fun x => (⟨.remove p, true⟩ :: x.1, x.2)
    | none => ((k false).interp find exec fs).map fun x => (⟨.remove p, false⟩ :: x.1, x.2)

theorem Prog.interp_runs {α : Type} {flt : Bool} {find : Bytes → Except GoErr Bytes} {exec : Bytes → Bytes → PArgs → Except GoErr Bytes}
    (p : Prog α) : ∀ {fs : FS} {x : Trace × FS × Out α}, p.interp find exec fs = some x → Runs flt p fs x.1 x.2.1 x.2.2 := by
  induction p with
  | done o => intro fs x h; cases h; exact .done _ _
  | op a k ih =>
    intro fs x h
    cases a with
    | find n ps =>
      simp only [Prog.interp, Option.map_eq_some_iff] at h
      obtain ⟨y, hy, rfl⟩ := h
      exact .op (.find ..) (ih _ hy)
    | exec p i a =>
      simp only [Prog.interp, Option.map_eq_some_iff] at h
      obtain ⟨y, hy, rfl⟩ := h
      exact .op (.exec ..) (ih _ hy)
    | readFile p =>
      simp only [Prog.interp, Option.map_eq_some_iff] at h
      obtain ⟨y, hy, rfl⟩ := h
      exact .op (.readFile ..) (ih _ hy)
    | readDir p => cases h
    | mkdirAll p =>
      simp only [Prog.interp, Option.map_eq_some_iff] at h
      obtain ⟨y, hy, rfl⟩ := h
      exact .op (.mkdirAll ..) (ih _ hy)
    | writeFile p c =>
      simp only [Prog.interp, Option.map_eq_some_iff] at h
      obtain ⟨y, hy, rfl⟩ := h
      exact .op (.writeFile ..) (ih _ hy)
    | remove p =>
      simp only [Prog.interp] at h
      split at h
      · rename_i c hc
        obtain ⟨y, hy, rfl⟩ := Option.map_eq_some_iff.1 h
        exact .op (.remove _ _ (by rw [hc]; simp)) (ih _ hy)
      · rename_i hc
        obtain ⟨y, hy, rfl⟩ := Option.map_eq_some_iff.1 h
        exact .op (.removeMissing _ _ hc) (ih _ hy)

/-- There is a run with the observed executions, contents of one file and result. -/
theorem Prog.interp_exists {α β : Type} {flt : Bool} {find : Bytes → Except GoErr Bytes}
    {exec : Bytes → Bytes → PArgs → Except GoErr Bytes} {p : Prog α} {fs : FS} (f : Trace → FS → Out α → β) {b : β}
    (h : (p.interp find exec fs).map (fun x => f x.1 x.2.1 x.2.2) = some b) :
    ∃ tr fs' o, Runs flt p fs tr fs' o ∧ f tr fs' o = b := by
  obtain ⟨x, hx, rfl⟩ := Option.map_eq_some_iff.1 h
  exact ⟨_, _, _, p.interp_runs hx, rfl⟩

/-- A program that first lists a directory, given what it finds there. Used in examples only. Proof
device: models no code. -/
def Prog.afterDir {α : Type} (d : Bytes) (names : List Bytes) : Prog α → Option (Prog α)
  | .op (.readDir d') k => if d' = d then some (k (.ok names : Except Bool (List Bytes))) else none
  | _ => none

theorem Prog.afterDir_exists {α β : Type} {flt : Bool} {find : Bytes → Except GoErr Bytes}
    {exec : Bytes → Bytes → PArgs → Except GoErr Bytes} {p : Prog α} {fs : FS} {d : Bytes} {names : List Bytes}
    (hl : FS.Lists fs d names) (f : Trace → FS → Out α → β) {b : β}
    (h : ((p.afterDir d names).bind fun p => p.interp find exec fs).map (fun x => f x.1 x.2.1 x.2.2) = some b)
    (hf : ∀ e tr fs' o, f (⟨.readDir d, e⟩ :: tr) fs' o = f tr fs' o) :
    ∃ tr fs' o, Runs flt p fs tr fs' o ∧ f tr fs' o = b := by
  obtain ⟨x, hx, rfl⟩ := Option.map_eq_some_iff.1 h
  obtain ⟨q, hq, hx⟩ := Option.bind_eq_some_iff.1 hx
  cases p with
  | done o => cases hq
  | op a k =>
    cases a with
    | readDir d' =>
      simp only [Prog.afterDir] at hq
      split at hq
      · rename_i hd
        subst hd
        cases hq
        exact ⟨_, _, _, .op (.readDir _ _ names hl) (Prog.interp_runs _ hx), hf ..⟩
      · cases hq
    | _ => cases hq

/-- Run the program for `n` calls and then crash, if it was about to write a file after `k` bytes of
it. Used in examples only. Proof device: models no code. -/
def Prog.interpCrash {α : Type} (find : Bytes → Except GoErr Bytes) (exec : Bytes → Bytes → PArgs → Except GoErr Bytes) (k : Nat) :
    Nat → Prog α → FS → Option (Trace × FS)
  | 0, .op (.writeFile p c) _, fs => some ([], fs.set p (some (c.take k)))
  | 0, _, fs => some ([], fs)
  | _ + 1, .done _, fs => some ([], fs)
  | n + 1, .op (.find m ps) g, fs => ((g (find m)).interpCrash find exec k n fs).map fun x => (⟨.find m ps, find m⟩ :: x.1, x.2)
  | n + 1, .op (.exec p i a) g, fs => ((g (exec p i a)).interpCrash find exec k n fs).map fun x => (⟨.exec p i a, exec p i a⟩ :: x.1, x.2)
  | n + 1, .op (.readFile p) g, fs => ((g (fs p)).interpCrash find exec k n fs).map fun x => (⟨.readFile p, fs p⟩ :: x.1, x.2)
  | n + 1, .op (.mkdirAll p) g, fs => ((g true).interpCrash find exec k n fs).map fun x => (⟨.mkdirAll p, true⟩ :: x.1, x.2)
  | n + 1, .op (.writeFile p c) g, fs =>
    ((g true).interpCrash find exec k n (fs.set p (some c))).map fun x => (⟨.writeFile p c, true⟩ :: x.1, x.2)
  | n + 1, .op (.remove p) g, fs => match fs p with
    | some _ => ((g true).interpCrash find exec k n (fs.set p none)).map fun x => (⟨.remove p, true⟩ :: x.1, x.2)
    | none => ((g false).interpCrash find exec k n fs).map fun x => (⟨.remove p, false⟩ :: x.1, x.2)
  | _ + 1, .op (.readDir _) _, _ => none

theorem Prog.interpCrash_crash {α : Type} {flt : Bool} {find : Bytes → Except GoErr Bytes}
    {exec : Bytes → Bytes → PArgs → Except GoErr Bytes} {k : Nat} : ∀ {n : Nat} {p : Prog α} {fs : FS} {x : Trace × FS},
    p.interpCrash find exec k n fs = some x → Crash flt p fs x.1 x.2
  | 0, .done o, fs, x, h => by cases h; exact .now _ _
  | 0, .op a g, fs, x, h => by
    cases a with
    | writeFile p c => cases h; exact .tear _ _ _ _ _
    | _ => cases h; exact .now _ _
  | n + 1, .done o, fs, x, h => by cases h; exact .now _ _
  | n + 1, .op a g, fs, x, h => by
    cases a with
    | find m ps =>
      obtain ⟨y, hy, rfl⟩ := Option.map_eq_some_iff.1 h
      exact .step (.find ..) (interpCrash_crash hy)
    | exec p i a =>
      obtain ⟨y, hy, rfl⟩ := Option.map_eq_some_iff.1 h
      exact .step (.exec ..) (interpCrash_crash hy)
    | readFile p =>
      obtain ⟨y, hy, rfl⟩ := Option.map_eq_some_iff.1 h
      exact .step (.readFile ..) (interpCrash_crash hy)
    | readDir p => cases h
    | mkdirAll p =>
      obtain ⟨y, hy, rfl⟩ := Option.map_eq_some_iff.1 h
      exact .step (.mkdirAll ..) (interpCrash_crash hy)
    | writeFile p c =>
      obtain ⟨y, hy, rfl⟩ := Option.map_eq_some_iff.1 h
      exact .step (.writeFile ..) (interpCrash_crash hy)
    | remove p =>
      simp only [Prog.interpCrash] at h
      split at h
      · rename_i c hc
        obtain ⟨y, hy, rfl⟩ := Option.map_eq_some_iff.1 h
        exact .step (.remove _ _ (by rw [hc]; simp)) (interpCrash_crash hy)
      · rename_i hc
        obtain ⟨y, hy, rfl⟩ := Option.map_eq_some_iff.1 h
        exact .step (.removeMissing _ _ hc) (interpCrash_crash hy)

theorem Prog.interpCrash_exists {α β : Type} {flt : Bool} {find : Bytes → Except GoErr Bytes}
    {exec : Bytes → Bytes → PArgs → Except GoErr Bytes} {k n : Nat} {p : Prog α} {fs : FS} (f : Trace → FS → β) {b : β}
    (h : (p.interpCrash find exec k n fs).map (fun x => f x.1 x.2) = some b) : ∃ tr fs', Crash flt p fs tr fs' ∧ f tr fs' = b := by
  obtain ⟨x, hx, rfl⟩ := Option.map_eq_some_iff.1 h
  exact ⟨_, _, Prog.interpCrash_crash hx, rfl⟩

theorem Prog.afterDir_crash_exists {α β : Type} {flt : Bool} {find : Bytes → Except GoErr Bytes}
    {exec : Bytes → Bytes → PArgs → Except GoErr Bytes} {k n : Nat} {p : Prog α} {fs : FS} {d : Bytes} {names : List Bytes}
    (hl : FS.Lists fs d names) (f : Trace → FS → β) {b : β}
    (h : ((p.afterDir d names).bind fun p => p.interpCrash find exec k n fs).map (fun x => f x.1 x.2) = some b)
    (hf : ∀ e tr fs', f (⟨.readDir d, e⟩ :: tr) fs' = f tr fs') :
    ∃ tr fs', Crash flt p fs tr fs' ∧ f tr fs' = b := by
  obtain ⟨x, hx, rfl⟩ := Option.map_eq_some_iff.1 h
  obtain ⟨q, hq, hx⟩ := Option.bind_eq_some_iff.1 hx
  cases p with
  | done o => cases hq
  | op a k =>
    cases a with
    | readDir d' =>
      simp only [Prog.afterDir] at hq
      split at hq
      · rename_i hd
        subst hd
        cases hq
        exact ⟨_, _, .step (.readDir _ _ names hl) (Prog.interpCrash_crash hx), hf ..⟩
      · cases hq
    | _ => cases hq

/-- The outcome of a program that has ended. Used in examples only. Proof device: models no code. -/
def Prog.outcome? {α : Type} : Prog α → Option (Out α)
  | .done o => some o
  | _ => none

/-- Answer one call; directories cannot be listed. Used in examples only. Proof device: models no
code. -/
def Act.interp (find : Bytes → Except GoErr Bytes) (exec : Bytes → Bytes → PArgs → Except GoErr Bytes) (fs : FS) : (a : Act) → Option (a.Resp × FS)
  | .find n _ => some (find n, fs)
  | .exec p i a => some (exec p i a, fs)
  | .readFile p => some (fs p, fs)
  | .readDir _ => none
  | .mkdirAll _ => some (true, fs)
  | .writeFile p c => some (true, fs.set p (some c))
  | .remove p => match fs p with
    | some _ => some (true, fs.set p none)
    | none => some (false, fs)

theorem Act.interp_step {flt : Bool} {find : Bytes → Except GoErr Bytes} {exec : Bytes → Bytes → PArgs → Except GoErr Bytes} {fs : FS}
    {a : Act} {x : a.Resp × FS} (h : a.interp find exec fs = some x) : Step flt fs a x.1 x.2 := by
  cases a with
  | find => cases h; exact .find ..
  | exec => cases h; exact .exec ..
  | readFile => cases h; exact .readFile ..
  | readDir => cases h
  | mkdirAll => cases h; exact .mkdirAll ..
  | writeFile => cases h; exact .writeFile ..
  | remove p =>
    simp only [Act.interp] at h
    split at h
    · rename_i c hc; cases h; exact .remove _ _ (by rw [hc]; simp)
    · rename_i hc; cases h; exact .removeMissing _ _ hc

/-- Run programs concurrently by a schedule: which program, and whether to write only part of its
data. Used in examples only. Proof device: models no code. -/
def Prog.interInterp {α : Type} (find : Bytes → Except GoErr Bytes) (exec : Bytes → Bytes → PArgs → Except GoErr Bytes) :
    List (Nat × Option Nat) → List (Prog α) → FS → Option (List (Nat × Move) × List (Prog α) × FS)
  | [], ps, fs => some ([], ps, fs)
  | (i, none) :: l, ps, fs =>
    match ps[i]? with
    | some (.op a k) => (a.interp find exec fs).bind fun x =>
      (interInterp find exec l (ps.set i (k x.1)) x.2).map fun y => ((i, .call ⟨a, x.1⟩) :: y.1, y.2)
    | _ => none
  | (i, some n) :: l, ps, fs =>
    match ps[i]? with
    | some (.op (.writeFile p c) _) => (interInterp find exec l ps (fs.set p (some (c.take n)))).map fun y => ((i, .part n) :: y.1, y.2)
    | _ => none

theorem Prog.interInterp_inter {α : Type} {flt : Bool} {find : Bytes → Except GoErr Bytes}
    {exec : Bytes → Bytes → PArgs → Except GoErr Bytes} {l : List (Nat × Option Nat)} :
    ∀ {ps : List (Prog α)} {fs : FS} {x : List (Nat × Move) × List (Prog α) × FS}, interInterp find exec l ps fs = some x →
      Inter flt ps fs x.1 x.2.1 x.2.2 := by
  induction l with
  | nil => intro ps fs x h; cases h; exact .refl _ _
  | cons m l ih =>
    intro ps fs x h
    obtain ⟨i, n⟩ := m
    cases n with
    | none =>
      simp only [interInterp] at h
      split at h
      · rename_i a k hi
        obtain ⟨y, hy, h⟩ := Option.bind_eq_some_iff.1 h
        obtain ⟨z, hz, rfl⟩ := Option.map_eq_some_iff.1 h
        exact .call hi (Act.interp_step hy) (ih hz)
      · cases h
    | some n =>
      simp only [interInterp] at h
      split at h
      · rename_i p c k hi
        obtain ⟨z, hz, rfl⟩ := Option.map_eq_some_iff.1 h
        exact .part hi n (ih hz)
      · cases h

end Verif
