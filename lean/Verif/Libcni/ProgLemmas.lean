/- Reasoning about programs with effects. -/
import Verif.Libcni.Prog

namespace Verif

variable {α β : Type} {flt : Bool}

/-- What follows a part of a program that ended with `o1`. Proof device: models no code. -/
def Follows (flt : Bool) (f : α → Prog β) (o1 : Out α) (fs1 : FS) (tr2 : Trace) (fs' : FS) (o : Out β) : Prop :=
  match o1 with
  | .ok a => Runs flt (f a) fs1 tr2 fs' o
  | .err e => tr2 = [] ∧ fs' = fs1 ∧ o = .err e
  | .panic => tr2 = [] ∧ fs' = fs1 ∧ o = .panic

theorem runs_done {o o' : Out α} {fs fs' : FS} {tr : Trace} :
    Runs flt (.done o) fs tr fs' o' ↔ tr = [] ∧ fs' = fs ∧ o' = o := by
  constructor
  · intro h; cases h; exact ⟨rfl, rfl, rfl⟩
  · rintro ⟨rfl, rfl, rfl⟩; exact .done _ _

theorem runs_op {a : Act} {k : a.Resp → Prog α} {o : Out α} {fs fs' : FS} {tr : Trace} :
    Runs flt (.op a k) fs tr fs' o ↔
      ∃ r fs1 tr', Step flt fs a r fs1 ∧ tr = ⟨a, r⟩ :: tr' ∧ Runs flt (k r) fs1 tr' fs' o := by
  constructor
  · intro h
    cases h with
    | op hs hr => exact ⟨_, _, _, hs, rfl, hr⟩
  · rintro ⟨r, fs1, tr', hs, rfl, hr⟩; exact .op hs hr

theorem runs_bind {p : Prog α} {f : α → Prog β} {fs fs' : FS} {tr : Trace} {o : Out β} :
    Runs flt (p.bind f) fs tr fs' o ↔
      ∃ tr1 tr2 fs1 o1, tr = tr1 ++ tr2 ∧ Runs flt p fs tr1 fs1 o1 ∧ Follows flt f o1 fs1 tr2 fs' o := by
  constructor
  · intro h
    induction p generalizing fs tr with
    | done o1 =>
      cases o1 with
      | ok a => exact ⟨[], tr, fs, .ok a, rfl, .done _ _, h⟩
      | err e =>
        obtain ⟨h1, h2, h3⟩ := runs_done.1 h
        exact ⟨[], [], fs, .err e, by simp [h1], .done _ _, rfl, h2, h3⟩
      | panic =>
        obtain ⟨h1, h2, h3⟩ := runs_done.1 h
        exact ⟨[], [], fs, .panic, by simp [h1], .done _ _, rfl, h2, h3⟩
    | op a k ih =>
      obtain ⟨r, fs1, tr', hs, rfl, hr⟩ := runs_op.1 h
      obtain ⟨tr1, tr2, fs2, o1, rfl, h1, h2⟩ := ih r hr
      exact ⟨⟨a, r⟩ :: tr1, tr2, fs2, o1, rfl, .op hs h1, h2⟩
  · rintro ⟨tr1, tr2, fs1, o1, rfl, h1, h2⟩
    induction h1 with
    | done o1 fs =>
      cases o1 with
      | ok a => exact h2
      | err e => obtain ⟨rfl, rfl, rfl⟩ := h2; exact .done _ _
      | panic => obtain ⟨rfl, rfl, rfl⟩ := h2; exact .done _ _
    | op hs hr ih => exact .op hs (ih h2)

/-- The outcome as a value. Proof device: models no code. -/
def attemptOut : Out α → Out (Except GoErr α)
  | .ok a => .ok (.ok a)
  | .err e => .ok (.error e)
  | .panic => .panic

theorem runs_attempt {p : Prog α} {fs fs' : FS} {tr : Trace} {o : Out (Except GoErr α)} :
    Runs flt p.attempt fs tr fs' o ↔ ∃ o1, Runs flt p fs tr fs' o1 ∧ o = attemptOut o1 := by
  constructor
  · intro h
    induction p generalizing fs tr with
    | done o1 =>
      refine ⟨o1, ?_⟩
      cases o1 <;> (obtain ⟨rfl, rfl, rfl⟩ := runs_done.1 h; exact ⟨.done _ _, rfl⟩)
    | op a k ih =>
      obtain ⟨r, fs1, tr', hs, rfl, hr⟩ := runs_op.1 h
      obtain ⟨o1, h1, h2⟩ := ih r hr
      exact ⟨o1, .op hs h1, h2⟩
  · rintro ⟨o1, h1, rfl⟩
    induction h1 with
    | done o1 fs => cases o1 <;> exact .done _ _
    | op hs hr ih => exact .op hs ih

/-- The outcome with its error changed. Proof device: models no code. -/
def mapErrOut (f : GoErr → GoErr) : Out α → Out α
  | .err e => .err (f e)
  | o => o

theorem runs_mapErr {p : Prog α} {f : GoErr → GoErr} {fs fs' : FS} {tr : Trace} {o : Out α} :
    Runs flt (p.mapErr f) fs tr fs' o ↔ ∃ o1, Runs flt p fs tr fs' o1 ∧ o = mapErrOut f o1 := by
  constructor
  · intro h
    induction p generalizing fs tr with
    | done o1 =>
      refine ⟨o1, ?_⟩
      cases o1 <;> (obtain ⟨rfl, rfl, rfl⟩ := runs_done.1 h; exact ⟨.done _ _, rfl⟩)
    | op a k ih =>
      obtain ⟨r, fs1, tr', hs, rfl, hr⟩ := runs_op.1 h
      obtain ⟨o1, h1, h2⟩ := ih r hr
      exact ⟨o1, .op hs h1, h2⟩
  · rintro ⟨o1, h1, rfl⟩
    induction h1 with
    | done o1 fs => cases o1 <;> exact .done _ _
    | op hs hr ih => exact .op hs ih

theorem prog_bind_eq (p : Prog α) (f : α → Prog β) : (p >>= f) = p.bind f := rfl

theorem execs_append (a b : Trace) : Trace.execs (a ++ b) = Trace.execs a ++ Trace.execs b := by
  simp [Trace.execs, List.filterMap_append]
theorem finds_append (a b : Trace) : Trace.finds (a ++ b) = Trace.finds a ++ Trace.finds b := by
  simp [Trace.finds, List.filterMap_append]
@[simp] theorem execs_nil : Trace.execs [] = [] := rfl
@[simp] theorem finds_nil : Trace.finds [] = [] := rfl

/-! ### what a program can do at all -/

/-- Every call the program can make, whatever it is answered, satisfies `P`. Proof device: models no
code. -/
def Prog.All (P : Act → Prop) : Prog α → Prop
  | .done _ => True
  | .op a k => P a ∧ ∀ r, (k r).All P

/-- Every way the program can end, whatever its calls are answered, satisfies `Q`. Proof device:
models no code. -/
def Prog.Ends (Q : Out α → Prop) : Prog α → Prop
  | .done o => Q o
  | .op _ k => ∀ r, (k r).Ends Q

theorem Prog.All.bind {P : Act → Prop} {p : Prog α} {f : α → Prog β} (hp : p.All P) (hf : ∀ a, (f a).All P) :
    (p.bind f).All P := by
  induction p with
  | done o => cases o <;> simp [Prog.bind, All, hf]
  | op a k ih => exact ⟨hp.1, fun r => ih r (hp.2 r)⟩

theorem Prog.All.attempt {P : Act → Prop} {p : Prog α} (hp : p.All P) : p.attempt.All P := by
  induction p with
  | done o => cases o <;> trivial
  | op a k ih => exact ⟨hp.1, fun r => ih r (hp.2 r)⟩

theorem Prog.All.mapErr {P : Act → Prop} {p : Prog α} {f : GoErr → GoErr} (hp : p.All P) : (p.mapErr f).All P := by
  induction p with
  | done o => cases o <;> trivial
  | op a k ih => exact ⟨hp.1, fun r => ih r (hp.2 r)⟩

theorem Prog.All.mono {P Q : Act → Prop} {p : Prog α} (hp : p.All P) (h : ∀ a, P a → Q a) : p.All Q := by
  induction p with
  | done o => trivial
  | op a k ih => exact ⟨h _ hp.1, fun r => ih r (hp.2 r)⟩

theorem Prog.Ends.bind {Q : Out β → Prop} {R : Out α → Prop} {p : Prog α} {f : α → Prog β} (hp : p.Ends R)
    (hok : ∀ a, R (.ok a) → (f a).Ends Q) (herr : ∀ e, R (.err e) → Q (.err e)) (hpa : R .panic → Q .panic) : (p.bind f).Ends Q := by
  induction p with
  | done o => cases o with
    | ok a => exact hok a hp
    | err e => exact herr e hp
    | panic => exact hpa hp
  | op a k ih => exact fun r => ih r (hp r)

theorem Prog.Ends.attempt {Q : Out (Except GoErr α) → Prop} {R : Out α → Prop} {p : Prog α} (hp : p.Ends R)
    (h : ∀ o, R o → Q (attemptOut o)) : p.attempt.Ends Q := by
  induction p with
  | done o => cases o <;> exact h _ hp
  | op a k ih => exact fun r => ih r (hp r)

theorem Prog.Ends.mapErr {Q : Out α → Prop} {R : Out α → Prop} {p : Prog α} {f : GoErr → GoErr} (hp : p.Ends R)
    (h : ∀ o, R o → Q (mapErrOut f o)) : (p.mapErr f).Ends Q := by
  induction p with
  | done o => cases o <;> exact h _ hp
  | op a k ih => exact fun r => ih r (hp r)

theorem Prog.Ends.runs {Q : Out α → Prop} {p : Prog α} (hp : p.Ends Q) {fs fs' : FS} {tr : Trace} {o : Out α}
    (h : Runs flt p fs tr fs' o) : Q o := by
  induction h with
  | done o fs => exact hp
  | op hs hr ih => exact ih (hp _)

theorem Prog.All.runs {P : Act → Prop} {p : Prog α} (hp : p.All P) {fs fs' : FS} {tr : Trace} {o : Out α}
    (h : Runs flt p fs tr fs' o) : ∀ e ∈ tr, P e.act := by
  induction h with
  | done o fs => simp
  | op hs hr ih =>
    intro e he
    rw [List.mem_cons] at he
    rcases he with rfl | he
    · exact hp.1
    · exact ih (hp.2 _) e he

/-! ### files a program leaves alone -/

/-- The path a call may change. Proof device: models no code. -/
def Act.writes : Act → Option Bytes
  | .writeFile p _ => some p
  | .remove p => some p
  | _ => none

theorem FS.set_same (fs : FS) (p : Bytes) (c : Option Bytes) : fs.set p c p = c := by simp [FS.set]
theorem FS.set_other (fs : FS) {p q : Bytes} (c : Option Bytes) (h : q ≠ p) : fs.set p c q = fs q := by simp [FS.set, h]

theorem step_frame {a : Act} {r : a.Resp} {fs fs1 : FS} (hs : Step flt fs a r fs1) {q : Bytes} (h : a.writes ≠ some q) :
    fs1 q = fs q := by
  cases hs <;> first
    | rfl
    | (apply FS.set_other; intro e; subst e; exact h rfl)

theorem step_readonly {a : Act} {r : a.Resp} {fs fs1 : FS} (hs : Step flt fs a r fs1) (h : a.writes = none) : fs1 = fs := by
  cases hs <;> first
    | rfl
    | simp [Act.writes] at h

/-- Files the program never writes or removes stay as they are. -/
theorem Prog.All.frame {p : Prog α} {q : Bytes} (hp : p.All fun a => a.writes ≠ some q) {fs fs' : FS} {tr : Trace} {o : Out α}
    (h : Runs flt p fs tr fs' o) : fs' q = fs q := by
  induction h with
  | done o fs => rfl
  | op hs hr ih => rw [ih (hp.2 _), step_frame hs hp.1]

/-- A program that only looks. -/
theorem Prog.All.readonly {p : Prog α} (hp : p.All fun a => a.writes = none) {fs fs' : FS} {tr : Trace} {o : Out α}
    (h : Runs flt p fs tr fs' o) : fs' = fs := by
  induction h with
  | done o fs => rfl
  | op hs hr ih => rw [ih (hp.2 _), step_readonly hs hp.1]

/-- Not an execution of a plugin. Proof device: models no code. -/
def Act.isExec : Act → Bool
  | .exec .. => true
  | _ => false

/-- Proof device: models no code. -/
def Act.isFind : Act → Bool
  | .find .. => true
  | _ => false

theorem Event.exec?_none {e : Event} (h : e.act.isExec = false) : e.exec? = none := by
  obtain ⟨a, r⟩ := e
  cases a <;> first | rfl | simp [Act.isExec] at h

theorem Prog.All.noExec {p : Prog α} (hp : p.All fun a => a.isExec = false) {fs fs' : FS} {tr : Trace} {o : Out α}
    (h : Runs flt p fs tr fs' o) : tr.execs = [] := by
  have := hp.runs h
  rw [Trace.execs, List.filterMap_eq_nil_iff]
  exact fun e he => Event.exec?_none (this e he)

theorem Event.find?_none {e : Event} (h : e.act.isFind = false) : e.find? = none := by
  obtain ⟨a, r⟩ := e
  cases a <;> first | rfl | simp [Act.isFind] at h

theorem Prog.All.noFind {p : Prog α} (hp : p.All fun a => a.isFind = false) {fs fs' : FS} {tr : Trace} {o : Out α}
    (h : Runs flt p fs tr fs' o) : tr.finds = [] := by
  have := hp.runs h
  rw [Trace.finds, List.filterMap_eq_nil_iff]
  exact fun e he => Event.find?_none (this e he)

/-! ### runs without faults are runs with faults allowed -/

theorem Step.weaken {a : Act} {r : a.Resp} {fs fs1 : FS} (hs : Step false fs a r fs1) : Step flt fs a r fs1 := by
  cases hs with
  | find => exact .find ..
  | exec => exact .exec ..
  | readFile => exact .readFile ..
  | readFileFails _ h => cases h
  | readDir _ _ h => exact .readDir _ _ _ h
  | readDirMissing _ h => exact .readDirMissing _ _ h
  | readDirFails _ _ h => cases h
  | mkdirAll => exact .mkdirAll ..
  | mkdirAllFails _ h => cases h
  | writeFile => exact .writeFile ..
  | writeFileFails _ _ h => cases h
  | writeFileTorn _ _ _ h => cases h
  | remove _ h => exact .remove _ _ h
  | removeMissing _ h => exact .removeMissing _ _ h
  | removeFails _ h => cases h

theorem Runs.weaken {p : Prog α} {fs fs' : FS} {tr : Trace} {o : Out α} (h : Runs false p fs tr fs' o) :
    Runs flt p fs tr fs' o := by
  induction h with
  | done o fs => exact .done _ _
  | op hs hr ih => exact .op hs.weaken ih

end Verif
