/- Reasoning about interrupted programs. -/
import Verif.Libcni.CachePath

namespace Verif
open Spec

variable {α β : Type} {flt : Bool} {fs fs' : FS} {tr : Trace}

theorem crash_done {o : Out α} (h : Crash flt (.done o) fs tr fs') : tr = [] ∧ fs' = fs := by
  cases h; exact ⟨rfl, rfl⟩

/-- The crash is in the first part, or after it has been completed. -/
theorem crash_bind {p : Prog α} {f : α → Prog β} (h : Crash flt (p.bind f) fs tr fs') :
    Crash flt p fs tr fs' ∨
      ∃ a tr1 tr2 fs1, tr = tr1 ++ tr2 ∧ Runs flt p fs tr1 fs1 (.ok a) ∧ Crash flt (f a) fs1 tr2 fs' := by
  induction p generalizing fs tr with
  | done o =>
    cases o with
    | ok a => exact .inr ⟨a, [], tr, fs, rfl, .done _ _, h⟩
    | err e => obtain ⟨rfl, rfl⟩ := crash_done h; exact .inl (.now _ _)
    | panic => obtain ⟨rfl, rfl⟩ := crash_done h; exact .inl (.now _ _)
  | op a k ih =>
    simp only [Prog.bind] at h
    generalize hq : (Prog.op a fun r => (k r).bind f) = q at h
    cases h with
    | now => exact .inl (.now _ _)
    | tear p c k' _ n =>
      cases hq
      exact .inl (.tear _ _ _ _ _)
    | step hs hc =>
      cases hq
      rcases ih _ hc with h | ⟨x, tr1, tr2, fs1, rfl, h1, h2⟩
      · exact .inl (.step hs h)
      · exact .inr ⟨x, _ :: tr1, tr2, fs1, rfl, .op hs h1, h2⟩

theorem crash_attempt {p : Prog α} (h : Crash flt p.attempt fs tr fs') : Crash flt p fs tr fs' := by
  induction p generalizing fs tr with
  | done o =>
    have : tr = [] ∧ fs' = fs := by cases o <;> exact crash_done h
    obtain ⟨rfl, rfl⟩ := this
    exact .now _ _
  | op a k ih =>
    simp only [Prog.attempt] at h
    generalize hq : (Prog.op a fun r => (k r).attempt) = q at h
    cases h with
    | now => exact .now _ _
    | tear p c k' _ n => cases hq; exact .tear _ _ _ _ _
    | step hs hc => cases hq; exact .step hs (ih _ hc)

theorem crash_mapErr {p : Prog α} {f : GoErr → GoErr} (h : Crash flt (p.mapErr f) fs tr fs') : Crash flt p fs tr fs' := by
  induction p generalizing fs tr with
  | done o =>
    have : tr = [] ∧ fs' = fs := by cases o <;> exact crash_done h
    obtain ⟨rfl, rfl⟩ := this
    exact .now _ _
  | op a k ih =>
    simp only [Prog.mapErr] at h
    generalize hq : (Prog.op a fun r => (k r).mapErr f) = q at h
    cases h with
    | now => exact .now _ _
    | tear p c k' _ n => cases hq; exact .tear _ _ _ _ _
    | step hs hc => cases hq; exact .step hs (ih _ hc)

/-- Files the program never writes or removes stay as they are, also when it is interrupted. -/
theorem Prog.All.crash_frame {p : Prog α} {q : Bytes} (hp : p.All fun a => a.writes ≠ some q) (h : Crash flt p fs tr fs') :
    fs' q = fs q := by
  induction h with
  | now => rfl
  | tear p c k fs n => exact FS.set_other _ _ (fun e => hp.1 (by rw [e]; rfl))
  | step hs hc ih => rw [ih (hp.2 _), step_frame hs hp.1]

theorem Prog.All.crash_readonly {p : Prog α} (hp : p.All fun a => a.writes = none) (h : Crash flt p fs tr fs') : fs' = fs := by
  induction h with
  | now => rfl
  | tear p c k fs n => exact absurd hp.1 (by simp [Act.writes])
  | step hs hc ih => rw [ih (hp.2 _), step_readonly hs hp.1]

theorem Prog.All.crash {P : Act → Prop} {p : Prog α} (hp : p.All P) (h : Crash flt p fs tr fs') : ∀ e ∈ tr, P e.act := by
  induction h with
  | now => simp
  | tear => simp
  | step hs hc ih =>
    intro e he
    rcases List.mem_cons.1 he with rfl | he
    · exact hp.1
    · exact ih (hp.2 _) e he

theorem Prog.All.crash_noExec {p : Prog α} (hp : p.All fun a => a.isExec = false) (h : Crash flt p fs tr fs') : tr.execs = [] := by
  have := hp.crash h
  rw [Trace.execs, List.filterMap_eq_nil_iff]
  exact fun e he => Event.exec?_none (this e he)

theorem FS.set_set (fs : FS) (p : Bytes) (a b : Option Bytes) : (fs.set p a).set p b = fs.set p b := by
  funext q
  by_cases h : q = p
  · simp [FS.set, h]
  · simp [FS.set, h]

theorem cacheAdd_noExec {c : CNIConfig} {result : Option Result} {config name : Bytes} {rt : RuntimeConf} :
    (c.cacheAdd result config name rt).All fun a => a.isExec = false := by
  unfold CNIConfig.cacheAdd
  split
  · trivial
  · split
    · refine ⟨rfl, fun r => ?_⟩
      cases r with
      | false => trivial
      | true =>
        refine ⟨rfl, fun r => ?_⟩
        cases r <;> trivial
    · trivial
    · trivial

/-- An interrupted write of an entry. -/
theorem crash_cacheAdd {c : CNIConfig} {result : Option Result} {config name : Bytes} {rt : RuntimeConf}
    (h : Crash flt (c.cacheAdd result config name rt) fs tr fs') :
    tr.execs = [] ∧ (fs' = fs ∨ ∃ info p n, cachedInfoOf result config name rt = some info ∧ c.cachePath name rt = .ok p ∧
      fs' = fs.set p (some (info.json.print.take n))) := by
  refine ⟨cacheAdd_noExec.crash_noExec h, ?_⟩
  unfold CNIConfig.cacheAdd at h
  split at h
  · exact .inl (crash_done h).2
  · rename_i info hi
    split at h
    · rename_i p hp
      cases h with
      | now => exact .inl rfl
      | step hs hc =>
        have := step_readonly hs rfl
        subst this
        rename_i _ _ r
        cases r with
        | false => exact .inl (crash_done hc).2
        | true =>
          simp only at hc
          cases hc with
          | now => exact .inl rfl
          | tear _ _ _ _ n => exact .inr ⟨info, p, n, hi, hp, rfl⟩
          | step hs hc =>
            cases hs with
            | writeFile => rw [(crash_done hc).2]; exact .inr ⟨info, p, info.json.print.length, hi, hp, by rw [List.take_length]⟩
            | writeFileFails => exact .inl (crash_done hc).2
            | writeFileTorn _ _ n _ => rw [(crash_done hc).2]; exact .inr ⟨info, p, n, hi, hp, rfl⟩
    · exact .inl (crash_done h).2
    · exact .inl (crash_done h).2

theorem cacheDel_noExec {c : CNIConfig} {name : Bytes} {rt : RuntimeConf} :
    (c.cacheDel name rt).All fun a => a.isExec = false := by
  unfold CNIConfig.cacheDel
  split
  · refine ⟨rfl, fun r => ?_⟩
    cases r <;> trivial
  · trivial

theorem crash_cacheDel {c : CNIConfig} {name : Bytes} {rt : RuntimeConf} (h : Crash flt (c.cacheDel name rt) fs tr fs') :
    tr.execs = [] ∧ (fs' = fs ∨ ∃ p, c.cachePath name rt = .ok p ∧ fs' = fs.set p none) := by
  refine ⟨cacheDel_noExec.crash_noExec h, ?_⟩
  unfold CNIConfig.cacheDel at h
  split at h
  · rename_i p hp
    cases h with
    | now => exact .inl rfl
    | step hs hc =>
      cases hs with
      | remove => exact .inr ⟨p, hp, (crash_done hc).2⟩
      | removeMissing => exact .inl (crash_done hc).2
      | removeFails => exact .inl (crash_done hc).2
  · exact .inl (crash_done h).2

end Verif
