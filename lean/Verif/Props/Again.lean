/- DEL can be retried and repeated, and a repeated GC has nothing left to delete (C78). -/
import Verif.Spec.Again
import Verif.Props.GcComplete

namespace Verif
open Spec

/-- One DEL of an attachment whose entry, if there is one, can be used. -/
theorem del_try {c : CNIConfig} {list : NetConfList} {rt : RuntimeConf} (hrt : rt.OK) (hn : PlainNames list.name rt)
    (hv : AtLeast list.cniVersion (0, 4, 0)) {fs fs1 : FS} {tr : Trace} {o : Out Unit} {prev : Option Result}
    (hc : cachedResultOf list.cniVersion (fs (entryPath c list.name rt)) = .ok prev)
    (h : Runs false (c.delNetworkList list rt) fs tr fs1 o) :
    Sweep c b!"DEL" list.name list.cniVersion rt list.plugins.reverse prev tr ∧ (o = .ok () ↔ AllSucceeded list.plugins tr) ∧
      (o ≠ .ok () → fs1 = fs) ∧ (o = .ok () → fs1 = fs.set (entryPath c list.name rt) none) := by
  have hp := cachePath_eq (c := c) hn
  have hdet : ∀ {tr1 : Trace} {fs3 : FS} {o1 : Out (Option Result)},
      Runs false (c.getNetworkListCachedResult list rt) fs tr1 fs3 o1 → o1 = .ok prev := by
    intro tr1 fs3 o1 hr
    have := (runs_getCachedResult hr).2.2.1 rfl _ hp
    rw [this, hc]
  have hset : ∀ {fs : FS} {q : Bytes}, fs q = none → fs = fs.set q none := by
    intro fs q hq
    funext x
    by_cases hx : x = q
    · subst hx; rw [FS.set_same, hq]
    · rw [FS.set_other _ _ hx]
  rcases delNetworkList_runs hrt h with ⟨hno, -⟩ | ⟨hr, -⟩ | ⟨pv, fs2, hsw, hall, -, hfs, ⟨hno, -⟩ | ⟨-, tr1, o1, hr, hx⟩⟩
  · obtain ⟨p, hp, -⟩ := hv; exact absurd ⟨p, hp⟩ hno
  · cases hdet hr
  · exact absurd hv hno
  · have := hdet hr
    rcases hx with ⟨h1, rfl⟩ | ⟨⟨g, h1⟩, -⟩
    · rw [this] at h1; cases h1
      refine ⟨hsw, hall, fun hne => ?_, fun hok => ?_⟩
      · rcases hfs with ⟨rfl, -⟩ | ⟨hok, -⟩
        · rfl
        · exact absurd hok hne
      · rcases hfs with ⟨rfl, h0⟩ | ⟨-, p, hp', rfl⟩
        · exact hset (h0 hok rfl _ hp)
        · rw [hp] at hp'; cases hp'; rfl
    · rw [this] at h1; cases h1

theorem del_try_network {c : CNIConfig} {net : PluginConfig} {rt : RuntimeConf} (hrt : rt.OK) (hn : PlainNames net.network.name rt)
    (hv : AtLeast net.network.cniVersion (0, 4, 0)) {fs fs1 : FS} {tr : Trace} {o : Out Unit} {prev : Option Result}
    (hc : cachedResultOf net.network.cniVersion (fs (entryPath c net.network.name rt)) = .ok prev)
    (h : Runs false (c.delNetwork net rt) fs tr fs1 o) :
    Sweep c b!"DEL" net.network.name net.network.cniVersion rt [net] prev tr ∧ (o = .ok () ↔ AllSucceeded [net] tr) ∧
      (o ≠ .ok () → fs1 = fs) ∧ (o = .ok () → fs1 = fs.set (entryPath c net.network.name rt) none) := by
  have hp := cachePath_eq (c := c) hn
  have hdet : ∀ {tr1 : Trace} {fs3 : FS} {o1 : Out (Option Result)},
      Runs false (c.getNetworkCachedResult net rt) fs tr1 fs3 o1 → o1 = .ok prev := by
    intro tr1 fs3 o1 hr
    have := (runs_getCachedResult hr).2.2.1 rfl _ hp
    rw [this, hc]
  have hset : ∀ {fs : FS} {q : Bytes}, fs q = none → fs = fs.set q none := by
    intro fs q hq
    funext x
    by_cases hx : x = q
    · subst hx; rw [FS.set_same, hq]
    · rw [FS.set_other _ _ hx]
  rcases delNetwork_runs hrt h with ⟨-, -, -, hno | ⟨-, tr1, o1, hr, hne⟩⟩ | ⟨pv, hsw, hall, -, hfs, ⟨hno, -⟩ | ⟨-, tr1, hr⟩⟩
  · obtain ⟨p, hp, -⟩ := hv; exact absurd ⟨p, hp⟩ hno
  · exact absurd (hdet hr) (hne _)
  · exact absurd hv hno
  · cases hdet hr
    refine ⟨hsw, hall, fun hne => ?_, fun hok => ?_⟩
    · rcases hfs with ⟨rfl, -⟩ | ⟨hok, -⟩
      · rfl
      · exact absurd hok hne
    · rcases hfs with ⟨rfl, h0⟩ | ⟨-, p, hp', rfl⟩
      · exact hset (h0 hok rfl _ hp)
      · rw [hp] at hp'; cases hp'; rfl

theorem tries_general {p : Prog Unit} {key : Bytes} {C : Option Bytes → Out (Option Result)} {S : Option Result → Trace → Prop}
    {A : Trace → Prop} (hC : C none = .ok none)
    (htry : ∀ (fs fs1 : FS) (tr : Trace) (o : Out Unit) (prev : Option Result), C (fs key) = .ok prev → Runs false p fs tr fs1 o →
      S prev tr ∧ (o = .ok () ↔ A tr) ∧ (o ≠ .ok () → fs1 = fs) ∧ (o = .ok () → fs1 = fs.set key none))
    {fs fs' : FS} {l : List (Trace × Out Unit)} {prev : Option Result} (hc' : C (fs key) = .ok prev) (h : Tries p fs l fs') :
    (∀ (i : Nat) (tr : Trace) (o : Out Unit), l[i]? = some (tr, o) →
      (¬ DoneBefore l i → S prev tr) ∧ (DoneBefore l i → S none tr) ∧ (o = .ok () ↔ A tr)) ∧
    ((∀ x ∈ l, x.2 ≠ .ok ()) → fs' = fs) ∧ ((∃ x ∈ l, x.2 = .ok ()) → fs' = fs.set key none) := by
  induction h generalizing prev with
  | nil fs => exact ⟨by simp, by simp, by simp⟩
  | @cons fs fs1 fs2 tr o l h hl ih =>
    obtain ⟨hsw, hall, hne, hok⟩ := htry _ _ _ _ _ hc' h
    by_cases ho : o = .ok ()
    · subst ho
      have hfs := hok rfl
      have hnone : C (fs1 key) = .ok none := by
        rw [hfs, FS.set_same]; exact hC
      obtain ⟨i1, i2, i3⟩ := ih hnone
      refine ⟨?_, fun hx => absurd rfl (hx (tr, .ok ()) (by simp)), fun _ => ?_⟩
      · intro i tr' o' hi
        cases i with
        | zero =>
          simp only [List.getElem?_cons_zero, Option.some.injEq, Prod.mk.injEq] at hi
          obtain ⟨rfl, rfl⟩ := hi
          exact ⟨fun _ => hsw, fun ⟨j, _, hj, _⟩ => absurd hj (by omega), hall⟩
        | succ i =>
          simp only [List.getElem?_cons_succ] at hi
          obtain ⟨a1, a2, a3⟩ := i1 i tr' o' hi
          refine ⟨fun hno => absurd ⟨0, tr, by omega, rfl⟩ hno, fun _ => ?_, a3⟩
          by_cases hd : DoneBefore l i
          · exact a2 hd
          · exact a1 hd
      · by_cases hx : ∃ x ∈ l, x.2 = .ok ()
        · rw [i3 hx, hfs]
          funext x
          by_cases hxe : x = key
          · subst hxe; rw [FS.set_same, FS.set_same]
          · rw [FS.set_other _ _ hxe]
        · rw [i2 fun x hxl he => hx ⟨x, hxl, he⟩, hfs]
    · have hfs := hne ho
      subst hfs
      obtain ⟨i1, i2, i3⟩ := ih hc'
      refine ⟨?_, fun hx => i2 fun x hxl => hx x (by simp [hxl]), fun ⟨x, hxl, he⟩ => i3 ?_⟩
      · intro i tr' o' hi
        cases i with
        | zero =>
          simp only [List.getElem?_cons_zero, Option.some.injEq, Prod.mk.injEq] at hi
          obtain ⟨rfl, rfl⟩ := hi
          exact ⟨fun _ => hsw, fun ⟨j, _, hj, _⟩ => absurd hj (by omega), hall⟩
        | succ i =>
          simp only [List.getElem?_cons_succ] at hi
          obtain ⟨a1, a2, a3⟩ := i1 i tr' o' hi
          refine ⟨fun hno => a1 fun ⟨j, t, hj, hjl⟩ => hno ⟨j + 1, t, by omega, hjl⟩, fun ⟨j, t, hj, hjl⟩ => a2 ?_, a3⟩
          cases j with
          | zero =>
            simp only [List.getElem?_cons_zero, Option.some.injEq, Prod.mk.injEq] at hjl
            exact absurd hjl.2 ho
          | succ j => exact ⟨j, t, by omega, hjl⟩
      · rcases List.mem_cons.1 hxl with rfl | hm
        · exact absurd he ho
        · exact ⟨x, hm, he⟩

/-- C78: DEL can be retried. As long as no DEL has succeeded, each hands the plugins the same previous result and leaves all files
as they were; the one that succeeds removes the entry and nothing else; those after it hand no previous result and change nothing. -/
theorem c78_retry (c : CNIConfig) (list : NetConfList) (rt : RuntimeConf) (hrt : rt.OK) (hn : PlainNames list.name rt)
    (hv : AtLeast list.cniVersion (0, 4, 0)) (fs fs' : FS) (l : List (Trace × Out Unit)) (prev : Option Result) (tr0 : Trace)
    (hc : Runs false (c.getNetworkListCachedResult list rt) fs tr0 fs (.ok prev)) (h : Tries (c.delNetworkList list rt) fs l fs') :
    (∀ (i : Nat) (tr : Trace) (o : Out Unit), l[i]? = some (tr, o) →
      (¬ DoneBefore l i → Sweep c b!"DEL" list.name list.cniVersion rt list.plugins.reverse prev tr) ∧
      (DoneBefore l i → Sweep c b!"DEL" list.name list.cniVersion rt list.plugins.reverse none tr) ∧
      (o = .ok () ↔ AllSucceeded list.plugins tr)) ∧
    ((∀ x ∈ l, x.2 ≠ .ok ()) → fs' = fs) ∧
    ((∃ x ∈ l, x.2 = .ok ()) → fs' = fs.set (entryPath c list.name rt) none) :=
  tries_general (C := cachedResultOf list.cniVersion)
    (S := fun prev tr => Sweep c b!"DEL" list.name list.cniVersion rt list.plugins.reverse prev tr)
    (A := AllSucceeded list.plugins) rfl (fun _ _ _ _ _ hc h => del_try hrt hn hv hc h)
    ((runs_getCachedResult hc).2.2.1 rfl _ (cachePath_eq hn)).symm h

/-- C78 for a single network. -/
theorem c78_retry_network (c : CNIConfig) (net : PluginConfig) (rt : RuntimeConf) (hrt : rt.OK) (hn : PlainNames net.network.name rt)
    (hv : AtLeast net.network.cniVersion (0, 4, 0)) (fs fs' : FS) (l : List (Trace × Out Unit)) (prev : Option Result) (tr0 : Trace)
    (hc : Runs false (c.getNetworkCachedResult net rt) fs tr0 fs (.ok prev)) (h : Tries (c.delNetwork net rt) fs l fs') :
    (∀ (i : Nat) (tr : Trace) (o : Out Unit), l[i]? = some (tr, o) →
      (¬ DoneBefore l i → Sweep c b!"DEL" net.network.name net.network.cniVersion rt [net] prev tr) ∧
      (DoneBefore l i → Sweep c b!"DEL" net.network.name net.network.cniVersion rt [net] none tr) ∧
      (o = .ok () ↔ AllSucceeded [net] tr)) ∧
    ((∀ x ∈ l, x.2 ≠ .ok ()) → fs' = fs) ∧
    ((∃ x ∈ l, x.2 = .ok ()) → fs' = fs.set (entryPath c net.network.name rt) none) :=
  tries_general (C := cachedResultOf net.network.cniVersion)
    (S := fun prev tr => Sweep c b!"DEL" net.network.name net.network.cniVersion rt [net] prev tr)
    (A := AllSucceeded [net]) rfl (fun _ _ _ _ _ hc h => del_try_network hrt hn hv hc h)
    ((runs_getCachedResult hc).2.2.1 rfl _ (cachePath_eq hn)).symm h

/-- C78: when a garbage collection has succeeded, another one, that spares at least what the first did, deletes nothing and leaves
all files as they are: it only asks the plugins (from version 1.1.0), and succeeds iff they do. -/
theorem c78_gc_again (c : CNIConfig) (list : NetConfList) (valid valid' : Option (List GCAttachment))
    (hs : ∀ p ∈ list.plugins, Sound p) (hd : list.disableGC = false) (fs fs1 fs2 : FS) (tr1 tr2 : Trace) (o : Out Unit)
    (hw : OwnNamed c fs) (hid : ∀ a, InCache c fs a → a.containerID ≠ [])
    (h1 : Runs false (c.gcNetworkList list valid) fs tr1 fs1 (.ok ()))
    (hv : ∀ a, Stale list.name valid' a → Stale list.name valid a)
    (h2 : Runs false (c.gcNetworkList list valid') fs1 tr2 fs2 o) :
    fs2 = fs1 ∧ ∃ tr0 trg gs, tr2 = tr0 ++ trg ∧ tr0.execs = [] ∧
      (AtLeast list.cniVersion (1, 1, 0) → Asks c b!"GC" list.name list.cniVersion valid' list.plugins trg gs) ∧
      (¬ AtLeast list.cniVersion (1, 1, 0) → trg = [] ∧ gs = []) ∧ (o = .ok () ↔ ∀ g ∈ gs, g = none) := by
  have hno := c23_complete c list valid hd fs fs1 tr1 h1 hw hid
  obtain ⟨names, stale, hl, hx⟩ := c23_gc c list valid' hs hd fs1 fs2 tr2 o h2
  have hst : stale = [] := by
    cases names with
    | nil => have := hl.same; cases stale with | nil => rfl | cons a l => simp at this
    | cons n ns =>
      obtain ⟨hc, a, ha, hk⟩ := (hl.mem n).1 (by simp)
      exact absurd (hv a hk) (hno a ⟨n, hc, ha⟩)
  subst hst
  rcases hx with ⟨tr0, trd, trg, os, gs, rfl, h0, hdl, ha, hna, hiff, -⟩ | ⟨-, tr0, trd, l, os, -, -, hpre, hdl, hlast⟩
  · cases hdl
    refine ⟨rfl, tr0, trg, gs, by simp, h0, ha, hna, ?_⟩
    rw [hiff]; simp
  · have hl0 : l = [] := List.prefix_nil.1 hpre
    subst hl0
    cases hdl
    simp at hlast

namespace Example

/-- The hypotheses of `c78_retry`: an attachment is in the cache, its result can be read. -/
example : rt.OK ∧ PlainNames list.name rt ∧ AtLeast list.cniVersion (0, 4, 0) ∧
    ∃ r tr0, Runs false (cfg.getNetworkListCachedResult list rt) oneFile tr0 oneFile (.ok (some r)) := by
  refine ⟨rt_ok, ⟨by decide, by decide, by decide⟩, ⟨(1, 0, 0), (parseVersion_iff _ _).1 (by decide +kernel), .inr (.inl (by decide))⟩, ?_⟩
  obtain ⟨tr, fs', o, h, hx⟩ := Prog.interp_exists (flt := false) (p := cfg.getNetworkListCachedResult list rt) (fs := oneFile)
    (find := find) (exec := good) (b := true) (fun _ _ o => (o.toOption.bind id).isSome) (by decide +kernel)
  have hfs := (runs_getCachedResult h).1
  subst hfs
  cases o with
  | ok r =>
    cases r with
    | some r => exact ⟨r, tr, h⟩
    | none => simp [Out.toOption] at hx
  | err e => simp [Out.toOption] at hx
  | panic => simp [Out.toOption] at hx

/-- DEL fails, is retried and succeeds, and is repeated. -/
example : ∃ l fs', Tries (cfg.delNetworkList list rt) oneFile l fs' ∧ fs' key = none ∧
    l.map (fun x => (x.1.execs.map (fun e => e.path), x.2.toOption)) =
      [([b!"/bin/b", b!"/bin/a"], none), ([b!"/bin/b", b!"/bin/a"], some ()), ([b!"/bin/b", b!"/bin/a"], some ())] := by
  obtain ⟨t1, f1, o1, h1, e1⟩ := Prog.interp_exists (flt := false) (p := cfg.delNetworkList list rt) (fs := oneFile)
    (find := find) (exec := failA) (b := ([b!"/bin/b", b!"/bin/a"], none)) (fun tr _ o => (tr.execs.map (fun e => e.path), o.toOption))
    (by decide +kernel)
  obtain ⟨t2, f2, o2, h2, e2⟩ := Prog.interp_exists (flt := false) (p := cfg.delNetworkList list rt) (fs := oneFile)
    (find := find) (exec := good) (b := ([b!"/bin/b", b!"/bin/a"], some (), none)) (fun tr fs o => (tr.execs.map (fun e => e.path), o.toOption, fs key))
    (by decide +kernel)
  obtain ⟨t3, f3, o3, h3, e3⟩ := Prog.interp_exists (flt := false) (p := cfg.delNetworkList list rt) (fs := noFiles)
    (find := find) (exec := good) (b := ([b!"/bin/b", b!"/bin/a"], some (), none)) (fun tr fs o => (tr.execs.map (fun e => e.path), o.toOption, fs key))
    (by decide +kernel)
  simp only [Prod.mk.injEq] at e1 e2 e3
  have hpl : PlainNames list.name rt := ⟨by decide, by decide, by decide⟩
  have hv : AtLeast list.cniVersion (0, 4, 0) := ⟨(1, 0, 0), (parseVersion_iff _ _).1 (by decide +kernel), .inr (.inl (by decide))⟩
  obtain ⟨pv, hpv⟩ : ∃ pv, cachedResultOf list.cniVersion (oneFile (entryPath cfg list.name rt)) = .ok pv := by
    have : (cachedResultOf list.cniVersion (oneFile (entryPath cfg list.name rt))).toOption.isSome = true := by decide +kernel
    cases hx : cachedResultOf list.cniVersion (oneFile (entryPath cfg list.name rt)) with
    | ok pv => exact ⟨pv, rfl⟩
    | err e => rw [hx] at this; simp [Out.toOption] at this
    | panic => rw [hx] at this; simp [Out.toOption] at this
  have k1 : f1 = oneFile := (del_try rt_ok hpl hv hpv h1).2.2.1 (by rintro rfl; simp [Out.toOption] at e1)
  have ok2 : o2 = .ok () := by cases o2 <;> simp_all [Out.toOption]
  have k2 : f2 = noFiles := by
    rw [(del_try rt_ok hpl hv hpv h2).2.2.2 ok2]
    have hk : entryPath cfg list.name rt = key := by decide +kernel
    funext x
    by_cases hx : x = key
    · subst hx; rw [hk, FS.set_same]; rfl
    · rw [hk, FS.set_other _ _ hx]; unfold oneFile; rw [FS.set_other _ _ hx]
  subst k1; subst k2
  exact ⟨_, f3, .cons h1 (.cons h2 (.cons h3 (.nil _))), e3.2.2, by simp [e1, e2.1, e2.2.1, e3.1, e3.2.1]⟩

/-- Two garbage collections: the first deletes the stale attachment, the second only asks the plugins. -/
example : ∃ fs1 fs2 tr1 tr2 o, Runs false (cfg.gcNetworkList list11 none) oneFile tr1 fs1 (.ok ()) ∧
    Runs false (cfg.gcNetworkList list11 none) fs1 tr2 fs2 o ∧
    tr1.execs.map (fun e => e.path) = [b!"/bin/b", b!"/bin/a", b!"/bin/a", b!"/bin/b"] ∧
    tr2.execs.map (fun e => e.path) = [b!"/bin/a", b!"/bin/b"] ∧ o = .ok () := by
  obtain ⟨tr1, fs1, o1, h1, e1⟩ := Prog.afterDir_exists (flt := false) (p := cfg.gcNetworkList list11 none) (find := find) (exec := good)
    (fs := oneFile) (Example.lists entry) (fun tr fs' o => (fs' key, o.toOption, tr.execs.map (fun e => e.path)))
    (b := (none, some (), [b!"/bin/b", b!"/bin/a", b!"/bin/a", b!"/bin/b"])) (by decide +kernel) (fun _ _ _ _ => rfl)
  simp only [Prod.mk.injEq] at e1
  have ok1 : o1 = .ok () := by cases o1 <;> simp_all [Out.toOption]
  subst ok1
  have hfs : fs1 = noFiles := by
    funext q
    by_cases hq : fs1 q = oneFile q
    · by_cases hk : q = key
      · subst hk; exact e1.1
      · rw [hq]; unfold oneFile; rw [FS.set_other _ _ hk]
    · exact (c22_files cfg list11 none _ _ _ _ h1 oneFile_own q hq).1
  subst hfs
  obtain ⟨tr2, fs2, o2, h2, e2⟩ := Prog.afterDir_exists (flt := false) (p := cfg.gcNetworkList list11 none) (find := find) (exec := good)
    (fs := noFiles) (d := b!"/cache/results") (names := []) ⟨by simp, by simp, by intro n; simp [noFiles]⟩
    (fun tr fs' o => (o.toOption, tr.execs.map (fun e => e.path)))
    (b := (some (), [b!"/bin/a", b!"/bin/b"])) (by decide +kernel) (fun _ _ _ _ => rfl)
  simp only [Prod.mk.injEq] at e2
  exact ⟨noFiles, fs2, tr1, tr2, o2, h1, h2, e1.2.2, e2.2, by cases o2 <;> simp_all [Out.toOption]⟩

end Example

end Verif
