/- C14, C15: DEL and CHECK. -/
import Verif.Props.Add
import Verif.Props.Version

namespace Verif
open Spec
set_option linter.unusedSimpArgs false

variable {flt : Bool} {fs fs' : FS} {tr : Trace}

/-! ### versions -/

theorem reads_040 : Reads b!"0.4.0" (0, 4, 0) := (parseVersion_iff _ _).1 (by decide +kernel)
theorem reads_110 : Reads b!"1.1.0" (1, 1, 0) := (parseVersion_iff _ _).1 (by decide +kernel)

theorem gte_atLeast {v t : Bytes} {p : Int × Int × Int} (ht : Reads t p) :
    (gte v t = .ok true ∧ AtLeast v p) ∨ (gte v t = .ok false ∧ ¬ AtLeast v p ∧ ∃ q, Reads v q) ∨
      (∃ g, gte v t = .err g ∧ ¬ AtLeast v p ∧ ¬ ∃ q, Reads v q) := by
  by_cases hv : ∃ q, Reads v q
  · obtain ⟨q, hq⟩ := hv
    obtain ⟨r, hr, hle⟩ := c01_gte hq ht
    cases r with
    | true => exact .inl ⟨hr, q, hq, hle.1 rfl⟩
    | false =>
      refine .inr (.inl ⟨hr, ?_, q, hq⟩)
      rintro ⟨q', hq', hle'⟩
      cases c01_reads_unique hq hq'
      exact absurd (hle.2 hle') (by simp)
  · obtain ⟨g, hg⟩ := (c01_error_iff v t).1.2 (.inl hv)
    exact .inr (.inr ⟨g, hg, fun ⟨q, hq, _⟩ => hv ⟨q, hq⟩, hv⟩)

/-! ### one plugin, and all of them -/

theorem runNetwork1_runs {c : CNIConfig} {verb name ver : Bytes} {net : PluginConfig} {prev : Option Result} {rt : RuntimeConf}
    (hrt : rt.OK) {o : Out Unit} (h : Runs flt (c.runNetwork1 verb name ver net prev rt) fs tr fs' o) :
    fs' = fs ∧ ((tr.execs = [] ∧ (∀ r, o ≠ .ok r)) ∨
      ∃ e, tr.execs = [e] ∧ Invoked c verb name ver rt net prev tr e ∧ o = runOutcome e) := by
  unfold CNIConfig.runNetwork1 at h
  simp only [prog_bind_eq] at h
  obtain ⟨tr1, tr2, fs1, o1, rfl, h1, h2⟩ := runs_bind.1 h
  obtain ⟨r, rfl, rfl, rfl⟩ := runs_findPlugin.1 h1
  cases r with
  | error g => obtain ⟨rfl, rfl, rfl⟩ := h2; exact ⟨rfl, .inl ⟨rfl, by simp⟩⟩
  | ok path =>
    obtain ⟨tr5, tr6, fs3, o3, rfl, h5, h6⟩ := runs_bind.1 h2
    obtain ⟨rfl, rfl, rfl⟩ := runs_lift.1 h5
    cases hb : buildOneConfig name ver net prev rt with
    | panic => rw [hb] at h6; obtain ⟨rfl, rfl, rfl⟩ := h6; exact ⟨rfl, .inl ⟨rfl, by simp⟩⟩
    | err g => rw [hb] at h6; obtain ⟨rfl, rfl, rfl⟩ := h6; exact ⟨rfl, .inl ⟨rfl, by simp⟩⟩
    | ok conf =>
      rw [hb] at h6
      obtain ⟨r, rfl, rfl, rfl⟩ := runs_execWithoutResult.1 h6
      refine ⟨rfl, .inr ⟨⟨path, conf.bytes, c.args verb rt, r⟩, rfl, ⟨?_, rfl, build_stdin hrt hb⟩, rfl⟩⟩
      exact List.mem_cons_self ..

theorem runOutcome_ok {e : ExecEv} : (runOutcome e = .ok () ↔ Succeeded e) ∧ runOutcome e ≠ .panic ∧
    (∀ g, e.resp = .error g → runOutcome e = .err g) := by
  unfold runOutcome Succeeded
  cases he : e.resp with
  | error g => simp
  | ok out => simp

theorem mapErr_id {α : Type} (p : Prog α) : p.mapErr id = p := by
  induction p with
  | done o => cases o <;> rfl
  | op a k ih => simp only [Prog.mapErr]; congr 1; funext r; exact ih r

/-- A loop that executes the plugins one by one and stops at the first failure. -/
theorem sweep_runs {c : CNIConfig} {verb name ver : Bytes} {prev : Option Result} {rt : RuntimeConf} (hrt : rt.OK)
    {w : PluginConfig → GoErr → GoErr} {L : List PluginConfig → Prog Unit} (h0 : L [] = .done (.ok ()))
    (hL : ∀ net rest, L (net :: rest) = ((c.runNetwork1 verb name ver net prev rt).mapErr (w net)).bind fun _ => L rest)
    {ps : List PluginConfig} :
    ∀ {fs fs' : FS} {tr : Trace} {o : Out Unit}, Runs flt (L ps) fs tr fs' o →
    fs' = fs ∧ Sweep c verb name ver rt ps prev tr ∧ (o = .ok () ↔ AllSucceeded ps tr) ∧
      (∀ e g, tr.execs.getLast? = some e → e.resp = .error g → ∃ p ∈ ps, o = .err (w p g)) := by
  induction ps with
  | nil =>
    intro fs fs' tr o h
    rw [h0] at h
    obtain ⟨rfl, rfl, rfl⟩ := runs_done.1 h
    exact ⟨rfl, ⟨by simp, by simp⟩, by simp [AllSucceeded], by simp⟩
  | cons net rest ih =>
    intro fs fs' tr o h
    rw [hL] at h
    obtain ⟨tr1, tr2, fs1, o1, rfl, h1, h2⟩ := runs_bind.1 h
    obtain ⟨o0, h0, rfl⟩ := runs_mapErr.1 h1
    obtain ⟨rfl, hc⟩ := runNetwork1_runs hrt h0
    have stop : ∀ (hno : ∀ r, o0 ≠ .ok r), tr2 = [] ∧ fs' = fs1 ∧ (∀ x, o ≠ .ok x) ∧ (∀ g, o0 = .err g → o = .err (w net g)) := by
      intro hno
      cases o0 with
      | ok r => exact absurd rfl (hno r)
      | err g => obtain ⟨rfl, rfl, rfl⟩ := h2; exact ⟨rfl, rfl, by simp, fun g' hg => by cases hg; rfl⟩
      | panic => obtain ⟨rfl, rfl, rfl⟩ := h2; exact ⟨rfl, rfl, by simp, by simp⟩
    rcases hc with ⟨he, hno⟩ | ⟨e, he, hinv, ho⟩
    · obtain ⟨rfl, rfl, hx, _⟩ := stop hno
      simp only [List.append_nil]
      refine ⟨by trivial, ⟨by simp [he], by simp [he]⟩, ⟨fun h => absurd h (hx _), ?_⟩, by simp [he]⟩
      rintro ⟨hl, _⟩
      rw [he] at hl; simp at hl
    · by_cases hok : o0 = .ok ()
      · subst hok
        have hr : Succeeded e := runOutcome_ok.1.1 ho.symm
        obtain ⟨rfl, hsw, hall, herr⟩ := ih h2
        have hex : Trace.execs (tr1 ++ tr2) = e :: tr2.execs := by rw [execs_append, he]; rfl
        refine ⟨rfl, ⟨?_, ?_⟩, ?_, ?_⟩
        · intro i e' hi
          rw [hex] at hi
          cases i with
          | zero =>
            simp only [List.getElem?_cons_zero, Option.some.injEq] at hi
            subst hi
            exact ⟨net, rfl, by simpa using hinv.mono (a := []) (d := tr2)⟩
          | succ i =>
            simp only [List.getElem?_cons_succ] at hi
            obtain ⟨p, hp, hin⟩ := hsw.invoked i e' hi
            exact ⟨p, by simpa using hp, by simpa using hin.mono (a := tr1) (d := [])⟩
        · intro i e' hi hlt
          rw [hex] at hi hlt
          cases i with
          | zero =>
            simp only [List.getElem?_cons_zero, Option.some.injEq] at hi
            subst hi; exact hr
          | succ i => exact hsw.succeeded i e' (by simpa using hi) (by simpa using hlt)
        · rw [hall]
          unfold AllSucceeded
          rw [hex]
          simp [hr]
        · intro e' g hl hg
          rw [hex] at hl
          cases hx : tr2.execs with
          | nil =>
            rw [hx] at hl
            simp only [List.getLast?_singleton, Option.some.injEq] at hl
            subst hl
            obtain ⟨out, ho'⟩ := hr
            rw [hg] at ho'; cases ho'
          | cons a l =>
            rw [hx, List.getLast?_cons_cons] at hl
            obtain ⟨p, hp, hpo⟩ := herr e' g (by rw [hx]; exact hl) hg
            exact ⟨p, List.mem_cons_of_mem _ hp, hpo⟩
      · obtain ⟨rfl, rfl, hx, hg⟩ := stop (fun r hr => hok hr)
        simp only [List.append_nil]
        refine ⟨by trivial, ⟨?_, ?_⟩, ⟨fun h => absurd h (hx _), ?_⟩, ?_⟩
        · intro i e' hi
          rw [he] at hi
          cases i with
          | zero =>
            simp only [List.getElem?_cons_zero, Option.some.injEq] at hi
            subst hi; exact ⟨net, rfl, hinv⟩
          | succ i => simp at hi
        · intro i e' hi hlt
          rw [he] at hlt; simp at hlt
        · rintro ⟨_, hs⟩
          exact absurd (ho.trans (runOutcome_ok.1.2 (hs e (by rw [he]; simp)))) hok
        · intro e' g hl hg'
          rw [he] at hl
          simp only [List.getLast?_singleton, Option.some.injEq] at hl
          subst hl
          exact ⟨net, by simp, hg g (ho.trans (runOutcome_ok.2.2 g hg'))⟩

theorem checkLoop_runs {c : CNIConfig} {name ver : Bytes} {prev : Option Result} {rt : RuntimeConf} (hrt : rt.OK)
    {ps : List PluginConfig} {o : Out Unit} (h : Runs flt (c.checkLoop name ver prev rt ps) fs tr fs' o) :
    fs' = fs ∧ Sweep c b!"CHECK" name ver rt ps prev tr ∧ (o = .ok () ↔ AllSucceeded ps tr) ∧
      (∀ e g, tr.execs.getLast? = some e → e.resp = .error g → o = .err g) := by
  obtain ⟨h1, h2, h3, h4⟩ := sweep_runs (w := fun _ => id) hrt (L := c.checkLoop name ver prev rt) rfl
    (fun net rest => by rw [mapErr_id]; rfl) h
  exact ⟨h1, h2, h3, fun e g he hg => by obtain ⟨_, _, h⟩ := h4 e g he hg; exact h⟩

theorem delLoop_runs {c : CNIConfig} {name ver : Bytes} {prev : Option Result} {rt : RuntimeConf} (hrt : rt.OK)
    {ps : List PluginConfig} {o : Out Unit} (h : Runs flt (c.delLoop name ver prev rt ps) fs tr fs' o) :
    fs' = fs ∧ Sweep c b!"DEL" name ver rt ps prev tr ∧ (o = .ok () ↔ AllSucceeded ps tr) ∧
      (∀ e g, tr.execs.getLast? = some e → e.resp = .error g → ∃ pre, o = .err (.wrap pre g)) := by
  obtain ⟨h1, h2, h3, h4⟩ := sweep_runs
    (w := fun net => .wrap (b!"plugin " ++ pluginDescription net.network ++ b!" failed (delete)"))
    hrt (L := c.delLoop name ver prev rt) rfl (fun net rest => rfl) h
  exact ⟨h1, h2, h3, fun e g he hg => by obtain ⟨_, _, h⟩ := h4 e g he hg; exact ⟨_, h⟩⟩

theorem Spec.Sweep.pad {c : CNIConfig} {verb name ver : Bytes} {rt : RuntimeConf} {ps : List PluginConfig} {prev : Option Result}
    {a b d : Trace} (h : Sweep c verb name ver rt ps prev b) (ha : a.execs = []) (hd : d.execs = []) :
    Sweep c verb name ver rt ps prev (a ++ b ++ d) := by
  have hex : Trace.execs (a ++ b ++ d) = b.execs := by rw [execs_append, execs_append, ha, hd]; simp
  refine ⟨?_, ?_⟩
  · rw [hex]
    intro i e hi
    obtain ⟨p, hp, hin⟩ := h.invoked i e hi
    exact ⟨p, hp, hin.mono⟩
  · rw [hex]; exact h.succeeded

theorem Spec.AllSucceeded.pad {ps : List PluginConfig} {a b d : Trace} (ha : a.execs = []) (hd : d.execs = []) :
    AllSucceeded ps (a ++ b ++ d) ↔ AllSucceeded ps b := by
  unfold AllSucceeded
  rw [execs_append, execs_append, ha, hd]; simp

/-! ### CHECK -/

/-- CHECK of a list. No file is changed. Below version 0.4.0, or with a malformed version, no plugin is executed and CHECK
fails. With `disableCheck` no plugin is executed and CHECK succeeds. Otherwise the plugins are executed in order up to the
first failure, each with the cached result as previous result, and CHECK succeeds iff all of them do; the error of a plugin is
returned unchanged. If there is a cache entry but no result can be read from it, no plugin is executed and CHECK fails. -/
theorem c15_check_list (c : CNIConfig) (list : NetConfList) (rt : RuntimeConf) (hrt : rt.OK) (fs fs' : FS) (tr : Trace)
    (o : Out Unit) (h : Runs flt (c.checkNetworkList list rt) fs tr fs' o) :
    fs' = fs ∧
    (¬ AtLeast list.cniVersion (0, 4, 0) → tr.execs = [] ∧ ∃ g, o = .err g) ∧
    (AtLeast list.cniVersion (0, 4, 0) → list.disableCheck = true → tr.execs = [] ∧ o = .ok ()) ∧
    (AtLeast list.cniVersion (0, 4, 0) → list.disableCheck = false →
      (∃ tr1 prev, Runs flt (c.getNetworkListCachedResult list rt) fs tr1 fs (.ok prev) ∧
        Sweep c b!"CHECK" list.name list.cniVersion rt list.plugins prev tr ∧ (o = .ok () ↔ AllSucceeded list.plugins tr) ∧
        (∀ e g, tr.execs.getLast? = some e → e.resp = .error g → o = .err g)) ∨
      (tr.execs = [] ∧ (∀ x, o ≠ .ok x) ∧
        ∃ tr1 o1, Runs flt (c.getNetworkListCachedResult list rt) fs tr1 fs o1 ∧ ∀ prev, o1 ≠ .ok prev)) := by
  unfold CNIConfig.checkNetworkList at h
  rcases gte_atLeast (v := list.cniVersion) reads_040 with ⟨hg, ha⟩ | ⟨hg, ha, _⟩ | ⟨g, hg, ha, _⟩
  · rw [hg] at h
    simp only at h
    cases hd : list.disableCheck with
    | true =>
      rw [hd, if_pos rfl] at h
      obtain ⟨rfl, rfl, rfl⟩ := runs_done.1 h
      exact ⟨rfl, fun hn => absurd ha hn, fun _ _ => ⟨rfl, rfl⟩, fun _ hf => by cases hf⟩
    | false =>
      rw [hd, if_neg (by simp)] at h
      obtain ⟨tr1, tr2, fs1, o1, rfl, h1, h2⟩ := runs_bind.1 h
      obtain ⟨o0, h0, rfl⟩ := runs_mapErr.1 h1
      obtain ⟨rfl, hne, -⟩ := runs_getCachedResult h0
      cases o0 with
      | ok prev =>
        obtain ⟨rfl, hsw, hall, herr⟩ := checkLoop_runs hrt h2
        refine ⟨rfl, fun hn => absurd ha hn, fun _ hf => by simp at hf, fun _ _ => .inl ⟨tr1, prev, h0, ?_, ?_, ?_⟩⟩
        · simpa using hsw.pad hne execs_nil
        · rw [hall]; simpa using (AllSucceeded.pad (ps := list.plugins) (b := tr2) hne execs_nil).symm
        · rw [execs_append, hne]; exact herr
      | err g =>
        obtain ⟨rfl, rfl, rfl⟩ := h2
        refine ⟨rfl, fun hn => absurd ha hn, fun _ hf => by simp at hf, fun _ _ => .inr ⟨?_, by simp, tr1, _, h0, by simp⟩⟩
        rw [execs_append, hne]; rfl
      | panic =>
        obtain ⟨rfl, rfl, rfl⟩ := h2
        refine ⟨rfl, fun hn => absurd ha hn, fun _ hf => by simp at hf, fun _ _ => .inr ⟨?_, by simp, tr1, _, h0, by simp⟩⟩
        rw [execs_append, hne]; rfl
  · rw [hg] at h
    obtain ⟨rfl, rfl, rfl⟩ := runs_done.1 h
    exact ⟨rfl, fun _ => ⟨rfl, _, rfl⟩, fun hn => absurd hn ha, fun hn => absurd hn ha⟩
  · rw [hg] at h
    obtain ⟨rfl, rfl, rfl⟩ := runs_done.1 h
    exact ⟨rfl, fun _ => ⟨rfl, _, rfl⟩, fun hn => absurd hn ha, fun hn => absurd hn ha⟩

/-- CHECK of a single network: the same for its one plugin (there is no `disableCheck`). -/
theorem c15_check_network (c : CNIConfig) (net : PluginConfig) (rt : RuntimeConf) (hrt : rt.OK) (fs fs' : FS) (tr : Trace)
    (o : Out Unit) (h : Runs flt (c.checkNetwork net rt) fs tr fs' o) :
    fs' = fs ∧
    (¬ AtLeast net.network.cniVersion (0, 4, 0) → tr.execs = [] ∧ ∃ g, o = .err g) ∧
    (AtLeast net.network.cniVersion (0, 4, 0) →
      (∃ tr1 prev, Runs flt (c.getNetworkCachedResult net rt) fs tr1 fs (.ok prev) ∧
        Sweep c b!"CHECK" net.network.name net.network.cniVersion rt [net] prev tr ∧ (o = .ok () ↔ AllSucceeded [net] tr) ∧
        (∀ e g, tr.execs.getLast? = some e → e.resp = .error g → o = .err g)) ∨
      (tr.execs = [] ∧ (∀ x, o ≠ .ok x) ∧
        ∃ tr1 o1, Runs flt (c.getNetworkCachedResult net rt) fs tr1 fs o1 ∧ ∀ prev, o1 ≠ .ok prev)) := by
  unfold CNIConfig.checkNetwork at h
  rcases gte_atLeast (v := net.network.cniVersion) reads_040 with ⟨hg, ha⟩ | ⟨hg, ha, _⟩ | ⟨g, hg, ha, _⟩
  · rw [hg] at h
    simp only at h
    obtain ⟨tr1, tr2, fs1, o1, rfl, h1, h2⟩ := runs_bind.1 h
    obtain ⟨o0, h0, rfl⟩ := runs_mapErr.1 h1
    obtain ⟨rfl, hne, -⟩ := runs_getCachedResult h0
    cases o0 with
    | ok prev =>
      have h2' : Runs flt (c.checkLoop net.network.name net.network.cniVersion prev rt [net]) fs1 (tr2 ++ []) fs' o := by
        refine runs_bind.2 ⟨tr2, [], fs', o, rfl, h2, ?_⟩
        cases o with
        | ok u => exact .done _ _
        | err g => exact ⟨rfl, rfl, rfl⟩
        | panic => exact ⟨rfl, rfl, rfl⟩
      rw [List.append_nil] at h2'
      obtain ⟨rfl, hsw, hall, herr⟩ := checkLoop_runs hrt h2'
      refine ⟨rfl, fun hn => absurd ha hn, fun _ => .inl ⟨tr1, prev, h0, ?_, ?_, ?_⟩⟩
      · simpa using hsw.pad hne execs_nil
      · rw [hall]; simpa using (AllSucceeded.pad (ps := [net]) (b := tr2) hne execs_nil).symm
      · rw [execs_append, hne]; exact herr
    | err g =>
      obtain ⟨rfl, rfl, rfl⟩ := h2
      refine ⟨rfl, fun hn => absurd ha hn, fun _ => .inr ⟨?_, by simp, tr1, _, h0, by simp⟩⟩
      rw [execs_append, hne]; rfl
    | panic =>
      obtain ⟨rfl, rfl, rfl⟩ := h2
      refine ⟨rfl, fun hn => absurd ha hn, fun _ => .inr ⟨?_, by simp, tr1, _, h0, by simp⟩⟩
      rw [execs_append, hne]; rfl
  · rw [hg] at h
    obtain ⟨rfl, rfl, rfl⟩ := runs_done.1 h
    exact ⟨rfl, fun _ => ⟨rfl, _, rfl⟩, fun hn => absurd hn ha⟩
  · rw [hg] at h
    obtain ⟨rfl, rfl, rfl⟩ := runs_done.1 h
    exact ⟨rfl, fun _ => ⟨rfl, _, rfl⟩, fun hn => absurd hn ha⟩

/-! ### DEL -/

/-- The end of a DEL: the plugins, then the removal of the entry. -/
theorem delRest_runs {c : CNIConfig} {name ver : Bytes} {ps : List PluginConfig} {rt : RuntimeConf} (hrt : rt.OK)
    {prev : Option Result} {o : Out Unit}
    (h : Runs flt ((c.delLoop name ver prev rt ps).bind fun _ => (c.cacheDel name rt).attempt.bind fun _ => .done (.ok ()))
      fs tr fs' o) :
    Sweep c b!"DEL" name ver rt ps prev tr ∧ (o = .ok () ↔ AllSucceeded ps tr) ∧
      (∀ e g, tr.execs.getLast? = some e → e.resp = .error g → ∃ pre, o = .err (.wrap pre g)) ∧
      ((fs' = fs ∧ (o = .ok () → flt = false → ∀ p, c.cachePath name rt = .ok p → fs p = none)) ∨
        (o = .ok () ∧ ∃ p, c.cachePath name rt = .ok p ∧ fs' = fs.set p none)) := by
  obtain ⟨tr1, tr2, fs1, o1, rfl, h1, h2⟩ := runs_bind.1 h
  obtain ⟨rfl, hsw, hall, herr⟩ := delLoop_runs hrt h1
  cases o1 with
  | err g =>
    obtain ⟨rfl, rfl, rfl⟩ := h2
    simp only [List.append_nil]
    exact ⟨hsw, hall, herr, .inl ⟨by trivial, by simp⟩⟩
  | panic =>
    obtain ⟨rfl, rfl, rfl⟩ := h2
    simp only [List.append_nil]
    exact ⟨hsw, hall, herr, .inl ⟨by trivial, by simp⟩⟩
  | ok u =>
    obtain ⟨tr3, tr4, fs2, o2, rfl, h3, h4⟩ := runs_bind.1 h2
    obtain ⟨o3, h5, rfl⟩ := runs_attempt.1 h3
    obtain ⟨hne, hnp, hfs⟩ := runs_cacheDel h5
    have hst : tr4 = [] ∧ fs' = fs2 ∧ o = .ok () := by
      cases o3 with
      | panic => exact absurd rfl hnp
      | ok u => exact runs_done.1 h4
      | err g => exact runs_done.1 h4
    obtain ⟨rfl, rfl, rfl⟩ := hst
    have hex : Trace.execs (tr1 ++ (tr3 ++ [])) = tr1.execs := by rw [execs_append, List.append_nil, hne, List.append_nil]
    refine ⟨?_, ?_, ?_, ?_⟩
    · have := hsw.pad execs_nil hne; simpa using this
    · rw [hall.trans (AllSucceeded.pad (a := []) execs_nil hne).symm]; simp
    · rw [hex]
      intro e g he hg
      obtain ⟨pre, hp⟩ := herr e g he hg
      cases hp
    · rcases hfs with ⟨rfl, hh⟩ | ⟨p, hp, hfs⟩
      · exact .inl ⟨rfl, fun _ => hh⟩
      · exact .inr ⟨rfl, p, hp, hfs⟩

/-- What DEL of a list does about the cached result: below 0.4.0 nothing; otherwise it is read, and an entry from which no
result can be read is removed and ignored. -/
theorem delNetworkList_runs {c : CNIConfig} {list : NetConfList} {rt : RuntimeConf} (hrt : rt.OK)
    {o : Out Unit} (h : Runs flt (c.delNetworkList list rt) fs tr fs' o) :
    ((¬ ∃ p, Reads list.cniVersion p) ∧ tr = [] ∧ fs' = fs ∧ ∃ g, o = .err g) ∨
    (Runs flt (c.getNetworkListCachedResult list rt) fs tr fs .panic ∧ tr.execs = [] ∧ fs' = fs ∧ o = .panic ∧
      AtLeast list.cniVersion (0, 4, 0)) ∨
    (∃ prev fs1, Sweep c b!"DEL" list.name list.cniVersion rt list.plugins.reverse prev tr ∧
      (o = .ok () ↔ AllSucceeded list.plugins tr) ∧
      (∀ e g, tr.execs.getLast? = some e → e.resp = .error g → ∃ pre, o = .err (.wrap pre g)) ∧
      ((fs' = fs1 ∧ (o = .ok () → flt = false → ∀ p, c.cachePath list.name rt = .ok p → fs1 p = none)) ∨
        (o = .ok () ∧ ∃ p, c.cachePath list.name rt = .ok p ∧ fs' = fs1.set p none)) ∧
      ((¬ AtLeast list.cniVersion (0, 4, 0) ∧ (∃ p, Reads list.cniVersion p) ∧ prev = none ∧ fs1 = fs) ∨
        (AtLeast list.cniVersion (0, 4, 0) ∧ ∃ tr1 o1, Runs flt (c.getNetworkListCachedResult list rt) fs tr1 fs o1 ∧
          ((o1 = .ok prev ∧ fs1 = fs) ∨ ((∃ g, o1 = .err g) ∧ prev = none ∧
            ((fs1 = fs ∧ (flt = false → ∀ p, c.cachePath list.name rt = .ok p → fs p = none)) ∨
              ∃ p, c.cachePath list.name rt = .ok p ∧ fs1 = fs.set p none)))))) := by
  have hlen : ∀ tr, AllSucceeded list.plugins.reverse tr ↔ AllSucceeded list.plugins tr := by intro tr; simp [AllSucceeded]
  unfold CNIConfig.delNetworkList at h
  simp only at h
  rcases gte_atLeast (v := list.cniVersion) reads_040 with ⟨hg, ha⟩ | ⟨hg, ha, hr⟩ | ⟨g, hg, ha, hr⟩
  · rw [hg] at h
    simp only at h
    obtain ⟨tr1, tr2, fs1, o1, rfl, h1, h2⟩ := runs_bind.1 h
    unfold CNIConfig.delPrev at h1
    obtain ⟨tr3, tr4, fs2, o2, rfl, h3, h4⟩ := runs_bind.1 h1
    obtain ⟨o3, h5, rfl⟩ := runs_attempt.1 h3
    obtain ⟨rfl, hne, -⟩ := runs_getCachedResult h5
    cases o3 with
    | ok prev =>
      obtain ⟨rfl, rfl, rfl⟩ := runs_done.1 h4
      obtain ⟨hsw, hall, herr, hfs⟩ := delRest_runs hrt h2
      refine .inr (.inr ⟨prev, fs1, ?_, ?_, ?_, hfs, .inr ⟨ha, tr3, _, h5, .inl ⟨rfl, rfl⟩⟩⟩)
      · simpa using hsw.pad hne execs_nil
      · rw [hall, hlen]; simpa using (AllSucceeded.pad (ps := list.plugins) (b := tr2) hne execs_nil).symm
      · simp only [execs_append, hne, execs_nil, List.nil_append]; exact herr
    | panic =>
      obtain ⟨rfl, rfl, rfl⟩ := h4
      obtain ⟨rfl, rfl, rfl⟩ := h2
      rw [List.append_nil, List.append_nil]
      exact .inr (.inl ⟨h5, hne, rfl, rfl, ha⟩)
    | err g =>
      obtain ⟨tr5, tr6, fs3, o4, rfl, h6, h7⟩ := runs_bind.1 h4
      obtain ⟨o5, h8, rfl⟩ := runs_attempt.1 h6
      obtain ⟨hne2, hnp, hfs2⟩ := runs_cacheDel h8
      have hst : tr6 = [] ∧ fs1 = fs3 ∧ o1 = .ok none := by
        cases o5 with
        | panic => exact absurd rfl hnp
        | ok u => exact runs_done.1 h7
        | err g => exact runs_done.1 h7
      obtain ⟨rfl, rfl, rfl⟩ := hst
      obtain ⟨hsw, hall, herr, hfs⟩ := delRest_runs hrt h2
      have hnea : Trace.execs (tr3 ++ (tr5 ++ [])) = [] := by rw [execs_append, List.append_nil, hne, hne2]; rfl
      refine .inr (.inr ⟨none, fs1, ?_, ?_, ?_, hfs, .inr ⟨ha, tr3, _, h5, .inr ⟨⟨g, rfl⟩, rfl, hfs2⟩⟩⟩)
      · have := hsw.pad hnea execs_nil
        rwa [List.append_nil] at this
      · rw [hall, hlen]
        have := (AllSucceeded.pad (ps := list.plugins) (b := tr2) hnea execs_nil).symm
        rwa [List.append_nil (tr3 ++ (tr5 ++ []) ++ tr2)] at this
      · rw [execs_append, hnea]; exact herr
  · rw [hg] at h
    simp only at h
    obtain ⟨hsw, hall, herr, hfs⟩ := delRest_runs hrt h
    exact .inr (.inr ⟨none, fs, hsw, hall.trans (hlen _), herr, hfs, .inl ⟨ha, hr, rfl, rfl⟩⟩)
  · rw [hg] at h
    obtain ⟨rfl, rfl, rfl⟩ := runs_done.1 h
    exact .inl ⟨hr, rfl, rfl, _, rfl⟩

/-- DEL of a list executes the plugins from last to first, each at most once, all with the same previous result, and stops at
the first failure. It succeeds iff all plugins were executed successfully; the error of a plugin that failed is returned, with a
description in front. -/
theorem c14_del_list (c : CNIConfig) (list : NetConfList) (rt : RuntimeConf) (hrt : rt.OK) (fs fs' : FS) (tr : Trace)
    (o : Out Unit) (h : Runs flt (c.delNetworkList list rt) fs tr fs' o) (hv : ∃ p, Reads list.cniVersion p) :
    (∃ prev, Sweep c b!"DEL" list.name list.cniVersion rt list.plugins.reverse prev tr) ∧
      (o = .ok () → AllSucceeded list.plugins tr) ∧
      (AllSucceeded list.plugins tr → o = .ok () ∨ (o = .panic ∧ list.plugins = [])) ∧
      (∀ e g, tr.execs.getLast? = some e → e.resp = .error g → ∃ pre, o = .err (.wrap pre g)) := by
  rcases delNetworkList_runs hrt h with ⟨hn, _⟩ | ⟨_, he, _, rfl, _⟩ | ⟨prev, fs1, hsw, hall, herr, _⟩
  · exact absurd hv hn
  · refine ⟨⟨none, ⟨by simp [he], by simp [he]⟩⟩, by simp, fun hs => .inr ⟨rfl, ?_⟩, by simp [he]⟩
    have := hs.1
    rw [he] at this
    exact List.length_eq_zero_iff.1 this.symm
  · exact ⟨⟨prev, hsw⟩, hall.1, fun hs => .inl (hall.2 hs), herr⟩

/-- With a malformed version DEL executes nothing, changes nothing and fails. -/
theorem c14_del_bad_version (c : CNIConfig) (list : NetConfList) (rt : RuntimeConf) (hrt : rt.OK) (fs fs' : FS) (tr : Trace)
    (o : Out Unit) (h : Runs flt (c.delNetworkList list rt) fs tr fs' o) (hv : ¬ ∃ p, Reads list.cniVersion p) :
    tr = [] ∧ fs' = fs ∧ ∃ g, o = .err g := by
  rcases delNetworkList_runs hrt h with ⟨_, h⟩ | ⟨_, _, _, _, p, hp, _⟩ | ⟨_, _, _, _, _, _, hp⟩
  · exact h
  · exact absurd ⟨p, hp⟩ hv
  · rcases hp with ⟨_, hp, _⟩ | ⟨⟨p, hp, _⟩, _⟩
    · exact absurd hp hv
    · exact absurd ⟨p, hp⟩ hv

/-- The only file DEL changes is the entry of its attachment, which it removes: when it succeeds, or when no result can be read
from the entry. So a failed DEL leaves a readable entry in place. -/
theorem c14_del_files (c : CNIConfig) (list : NetConfList) (rt : RuntimeConf) (hrt : rt.OK) (hn : PlainNames list.name rt)
    (fs fs' : FS) (tr : Trace) (o : Out Unit) (h : Runs flt (c.delNetworkList list rt) fs tr fs' o) (q : Bytes) (hq : fs' q ≠ fs q) :
    q = entryPath c list.name rt ∧ fs' q = none ∧
      (o = .ok () ∨ (AtLeast list.cniVersion (0, 4, 0) ∧
        ∃ tr1 g, Runs flt (c.getNetworkListCachedResult list rt) fs tr1 fs (.err g))) := by
  have hp := cachePath_eq (c := c) hn
  have set1 : ∀ {fs : FS} {p : Bytes}, fs.set p none q ≠ fs q → q = p ∧ fs.set p none q = none := by
    intro fs p hne
    by_cases he : q = p
    · subst he; exact ⟨rfl, FS.set_same ..⟩
    · exact absurd (FS.set_other _ _ he) hne
  rcases delNetworkList_runs hrt h with ⟨_, _, rfl, _⟩ | ⟨_, _, rfl, _⟩ | ⟨prev, fs1, _, _, _, hfs, hprev⟩
  · exact absurd rfl hq
  · exact absurd rfl hq
  · have hfs1 : fs1 = fs ∨ (fs1 = fs.set (entryPath c list.name rt) none ∧ AtLeast list.cniVersion (0, 4, 0) ∧
        ∃ tr1 g, Runs flt (c.getNetworkListCachedResult list rt) fs tr1 fs (.err g)) := by
      rcases hprev with ⟨_, _, _, rfl⟩ | ⟨ha, tr1, o1, hr, ⟨_, rfl⟩ | ⟨⟨g, rfl⟩, _, ⟨rfl, _⟩ | ⟨p, hp', rfl⟩⟩⟩
      · exact .inl rfl
      · exact .inl rfl
      · exact .inl rfl
      · rw [hp] at hp'; cases hp'
        exact .inr ⟨rfl, ha, tr1, g, hr⟩
    rcases hfs with ⟨rfl, _⟩ | ⟨ho, p, hp', rfl⟩
    · rcases hfs1 with rfl | ⟨rfl, ha, hr⟩
      · exact absurd rfl hq
      · exact ⟨(set1 hq).1, (set1 hq).2, .inr ⟨ha, hr⟩⟩
    · rw [hp] at hp'; cases hp'
      rcases hfs1 with rfl | ⟨rfl, ha, hr⟩
      · exact ⟨(set1 hq).1, (set1 hq).2, .inl ho⟩
      · refine ⟨?_, ?_, .inl ho⟩
        · by_cases he : q = entryPath c list.name rt
          · exact he
          · exact absurd (by rw [FS.set_other _ _ he, FS.set_other _ _ he]) hq
        · by_cases he : q = entryPath c list.name rt
          · subst he; exact FS.set_same ..
          · exact absurd (by rw [FS.set_other _ _ he, FS.set_other _ _ he]) hq

/-- A DEL that succeeds leaves no entry (unless removing the file failed, an error that DEL ignores). -/
theorem c14_del_removes (c : CNIConfig) (list : NetConfList) (rt : RuntimeConf) (hrt : rt.OK) (hn : PlainNames list.name rt)
    (fs fs' : FS) (tr : Trace) (h : Runs false (c.delNetworkList list rt) fs tr fs' (.ok ())) :
    fs' (entryPath c list.name rt) = none := by
  have hp := cachePath_eq (c := c) hn
  rcases delNetworkList_runs hrt h with ⟨_, _, _, _, hg⟩ | ⟨_, _, _, hpa, _⟩ | ⟨prev, fs1, _, _, _, hfs, hprev⟩
  · cases hg
  · cases hpa
  · rcases hfs with ⟨rfl, h0⟩ | ⟨_, p, hp', rfl⟩
    · exact h0 rfl rfl _ hp
    · rw [hp] at hp'; cases hp'; exact FS.set_same ..

/-- DEL of a single network. Unlike for a list, an entry from which no result can be read is an error here: no plugin is
executed and the entry stays. -/
theorem delNetwork_runs {c : CNIConfig} {net : PluginConfig} {rt : RuntimeConf} (hrt : rt.OK)
    {o : Out Unit} (h : Runs flt (c.delNetwork net rt) fs tr fs' o) :
    (tr.execs = [] ∧ fs' = fs ∧ (∀ x, o ≠ .ok x) ∧ ((¬ ∃ p, Reads net.network.cniVersion p) ∨
      (AtLeast net.network.cniVersion (0, 4, 0) ∧
        ∃ tr1 o1, Runs flt (c.getNetworkCachedResult net rt) fs tr1 fs o1 ∧ ∀ x, o1 ≠ .ok x))) ∨
    (∃ prev, Sweep c b!"DEL" net.network.name net.network.cniVersion rt [net] prev tr ∧
      (o = .ok () ↔ AllSucceeded [net] tr) ∧
      (∀ e g, tr.execs.getLast? = some e → e.resp = .error g → o = .err g) ∧
      ((fs' = fs ∧ (o = .ok () → flt = false → ∀ p, c.cachePath net.network.name rt = .ok p → fs p = none)) ∨
        (o = .ok () ∧ ∃ p, c.cachePath net.network.name rt = .ok p ∧ fs' = fs.set p none)) ∧
      ((¬ AtLeast net.network.cniVersion (0, 4, 0) ∧ prev = none) ∨
        (AtLeast net.network.cniVersion (0, 4, 0) ∧ ∃ tr1, Runs flt (c.getNetworkCachedResult net rt) fs tr1 fs (.ok prev)))) := by
  have rest : ∀ {prev : Option Result} {fs fs' : FS} {tr : Trace} {o : Out Unit},
      Runs flt ((c.runNetwork1 b!"DEL" net.network.name net.network.cniVersion net prev rt).bind
        fun _ => (c.cacheDel net.network.name rt).attempt.bind fun _ => .done (.ok ())) fs tr fs' o →
      Sweep c b!"DEL" net.network.name net.network.cniVersion rt [net] prev tr ∧
      (o = .ok () ↔ AllSucceeded [net] tr) ∧
      (∀ e g, tr.execs.getLast? = some e → e.resp = .error g → o = .err g) ∧
      ((fs' = fs ∧ (o = .ok () → flt = false → ∀ p, c.cachePath net.network.name rt = .ok p → fs p = none)) ∨
        (o = .ok () ∧ ∃ p, c.cachePath net.network.name rt = .ok p ∧ fs' = fs.set p none)) := by
    intro prev fs fs' tr o h
    obtain ⟨tr1, tr2, fs1, o1, rfl, h1, h2⟩ := runs_bind.1 h
    obtain ⟨rfl, hc⟩ := runNetwork1_runs hrt h1
    rcases hc with ⟨he, hno⟩ | ⟨e, he, hinv, ho⟩
    · have hst : tr2 = [] ∧ fs' = fs1 ∧ ∀ x, o ≠ .ok x := by
        cases o1 with
        | ok r => exact absurd rfl (hno r)
        | err g => obtain ⟨rfl, rfl, rfl⟩ := h2; exact ⟨rfl, rfl, by simp⟩
        | panic => obtain ⟨rfl, rfl, rfl⟩ := h2; exact ⟨rfl, rfl, by simp⟩
      obtain ⟨rfl, rfl, hx⟩ := hst
      rw [List.append_nil]
      refine ⟨⟨by simp [he], by simp [he]⟩, ⟨fun h => absurd h (hx _), ?_⟩, by simp [he], .inl ⟨rfl, fun h => absurd h (hx _)⟩⟩
      rintro ⟨hl, _⟩
      rw [he] at hl; simp at hl
    · by_cases hok : o1 = .ok ()
      · subst hok
        have hr : Succeeded e := runOutcome_ok.1.1 ho.symm
        obtain ⟨tr3, tr4, fs2, o2, rfl, h3, h4⟩ := runs_bind.1 h2
        obtain ⟨o3, h5, rfl⟩ := runs_attempt.1 h3
        obtain ⟨hne, hnp, hfs⟩ := runs_cacheDel h5
        have hst : tr4 = [] ∧ fs' = fs2 ∧ o = .ok () := by
          cases o3 with
          | panic => exact absurd rfl hnp
          | ok u => exact runs_done.1 h4
          | err g => exact runs_done.1 h4
        obtain ⟨rfl, rfl, rfl⟩ := hst
        have hex : Trace.execs (tr1 ++ (tr3 ++ [])) = [e] := by rw [execs_append, List.append_nil, hne, List.append_nil, he]
        refine ⟨⟨?_, ?_⟩, ?_, ?_, ?_⟩
        · rw [hex]
          intro i e' hi
          cases i with
          | zero =>
            simp only [List.getElem?_cons_zero, Option.some.injEq] at hi
            subst hi
            exact ⟨net, rfl, by simpa using hinv.mono (a := []) (d := tr3)⟩
          | succ i => simp at hi
        · rw [hex]; intro i e' _ hlt; simp at hlt
        · unfold AllSucceeded; rw [hex]; simp [hr]
        · rw [hex]
          intro e' g hl hg
          simp only [List.getLast?_singleton, Option.some.injEq] at hl
          subst hl
          obtain ⟨out, ho'⟩ := hr
          rw [hg] at ho'; cases ho'
        · rcases hfs with ⟨rfl, hh⟩ | ⟨p, hp, hfs⟩
          · exact .inl ⟨rfl, fun _ => hh⟩
          · exact .inr ⟨rfl, p, hp, hfs⟩
      · have hst : tr2 = [] ∧ fs' = fs1 ∧ (∀ x, o ≠ .ok x) ∧ ∀ g, o1 = .err g → o = .err g := by
          cases o1 with
          | ok r => exact absurd rfl hok
          | err g => obtain ⟨rfl, rfl, rfl⟩ := h2; exact ⟨rfl, rfl, by simp, fun g h => by cases h; rfl⟩
          | panic => obtain ⟨rfl, rfl, rfl⟩ := h2; exact ⟨rfl, rfl, by simp, by simp⟩
        obtain ⟨rfl, rfl, hx, hg⟩ := hst
        rw [List.append_nil]
        refine ⟨⟨?_, ?_⟩, ⟨fun h => absurd h (hx _), ?_⟩, ?_, .inl ⟨rfl, fun h => absurd h (hx _)⟩⟩
        · rw [he]
          intro i e' hi
          cases i with
          | zero =>
            simp only [List.getElem?_cons_zero, Option.some.injEq] at hi
            subst hi
            exact ⟨net, rfl, hinv⟩
          | succ i => simp at hi
        · rw [he]; intro i e' _ hlt; simp at hlt
        · rintro ⟨_, hs⟩
          exact absurd (ho.trans (runOutcome_ok.1.2 (hs e (by rw [he]; simp)))) hok
        · rw [he]
          intro e' g hl hg'
          simp only [List.getLast?_singleton, Option.some.injEq] at hl
          subst hl
          exact hg g (ho.trans (runOutcome_ok.2.2 g hg'))
  unfold CNIConfig.delNetwork at h
  simp only at h
  rcases gte_atLeast (v := net.network.cniVersion) reads_040 with ⟨hg, ha⟩ | ⟨hg, ha, hr⟩ | ⟨g, hg, ha, hr⟩
  · rw [hg] at h
    simp only at h
    obtain ⟨tr1, tr2, fs1, o1, rfl, h1, h2⟩ := runs_bind.1 h
    obtain ⟨o0, h0, rfl⟩ := runs_mapErr.1 h1
    obtain ⟨rfl, hne, -⟩ := runs_getCachedResult h0
    have hpad := @Spec.Sweep.pad
    cases o0 with
    | ok prev =>
      obtain ⟨hsw, hall, herr, hfs⟩ := rest h2
      refine .inr ⟨prev, ?_, ?_, ?_, hfs, .inr ⟨ha, tr1, h0⟩⟩
      · simpa using hsw.pad hne execs_nil
      · rw [hall]; simpa using (AllSucceeded.pad (ps := [net]) (b := tr2) hne execs_nil).symm
      · rw [execs_append, hne]; exact herr
    | err g =>
      obtain ⟨rfl, rfl, rfl⟩ := h2
      exact .inl ⟨by rw [execs_append, hne]; rfl, rfl, by simp, .inr ⟨ha, tr1, _, h0, by simp⟩⟩
    | panic =>
      obtain ⟨rfl, rfl, rfl⟩ := h2
      exact .inl ⟨by rw [execs_append, hne]; rfl, rfl, by simp, .inr ⟨ha, tr1, _, h0, by simp⟩⟩
  · rw [hg] at h
    simp only at h
    obtain ⟨hsw, hall, herr, hfs⟩ := rest h
    exact .inr ⟨none, hsw, hall, herr, hfs, .inl ⟨ha, rfl⟩⟩
  · rw [hg] at h
    obtain ⟨rfl, rfl, rfl⟩ := runs_done.1 h
    exact .inl ⟨rfl, rfl, by simp, .inl hr⟩

/-- DEL of a single network executes its plugin at most once, succeeds iff that was executed successfully, returns its error
unchanged, and removes the entry of the attachment only when it succeeds, and no other file. -/
theorem c14_del_network (c : CNIConfig) (net : PluginConfig) (rt : RuntimeConf) (hrt : rt.OK) (hn : PlainNames net.network.name rt)
    (fs fs' : FS) (tr : Trace) (o : Out Unit) (h : Runs flt (c.delNetwork net rt) fs tr fs' o) :
    (∃ prev, Sweep c b!"DEL" net.network.name net.network.cniVersion rt [net] prev tr) ∧
      (o = .ok () ↔ AllSucceeded [net] tr) ∧
      (∀ e g, tr.execs.getLast? = some e → e.resp = .error g → o = .err g) ∧
      (∀ q, fs' q ≠ fs q → q = entryPath c net.network.name rt ∧ fs' q = none ∧ o = .ok ()) ∧
      (o = .ok () → flt = false → fs' (entryPath c net.network.name rt) = none) := by
  have hp := cachePath_eq (c := c) hn
  rcases delNetwork_runs hrt h with ⟨he, rfl, hx, _⟩ | ⟨prev, hsw, hall, herr, hfs, _⟩
  · refine ⟨⟨none, ⟨by simp [he], by simp [he]⟩⟩, ⟨fun h => absurd h (hx _), ?_⟩, by simp [he], fun q hq => absurd rfl hq,
      fun h => absurd h (hx _)⟩
    rintro ⟨hl, _⟩
    rw [he] at hl; simp at hl
  · refine ⟨⟨prev, hsw⟩, hall, herr, ?_, ?_⟩
    · intro q hq
      rcases hfs with ⟨rfl, _⟩ | ⟨ho, p, hp', rfl⟩
      · exact absurd rfl hq
      · rw [hp] at hp'; cases hp'
        by_cases he : q = entryPath c net.network.name rt
        · subst he; exact ⟨rfl, FS.set_same .., ho⟩
        · exact absurd (FS.set_other _ _ he) hq
    · intro ho hf
      rcases hfs with ⟨rfl, h0⟩ | ⟨_, p, hp', rfl⟩
      · exact h0 ho hf _ hp
      · rw [hp] at hp'; cases hp'; exact FS.set_same ..

/-! ### concrete cases -/

namespace Example

/-- The entry after a successful ADD. -/
def entry : Bytes := b!"{\"kind\":\"cniCacheV1\",\"containerId\":\"c1\",\"config\":\"e30=\",\"ifName\":\"eth0\",\"networkName\":\"net\",\"netns\":\"/ns\",\"cniArgs\":[[\"K\",\"V\"]],\"result\":{\"cniVersion\":\"1.0.0\",\"dns\":{\"domain\":\"d\"}}}"
def key : Bytes := b!"/cache/results/net-c1-eth0"
def oneFile : FS := FS.set noFiles key (some entry)
def failA (p i : Bytes) (a : PArgs) : Except GoErr Bytes := if p = b!"/bin/a" then .error (.text b!"no") else good p i a

example : PlainNames list.name rt := ⟨by decide, by decide, by decide⟩
example : AtLeast list.cniVersion (0, 4, 0) ∧ ¬ AtLeast b!"0.3.1" (0, 4, 0) ∧ ¬ ∃ p, Reads b!"x" p := by
  refine ⟨?_, ?_, ?_⟩
  · exact ⟨(1, 0, 0), (parseVersion_iff _ _).1 (by decide +kernel), .inr (.inl (by decide))⟩
  · rintro ⟨p, hp, hle⟩
    cases c01_reads_unique hp ((parseVersion_iff _ (0, 3, 1)).1 (by decide +kernel))
    simp [LexLe, LexLt] at hle
  · rintro ⟨p, hp⟩
    have := (parseVersion_iff _ _).2 hp
    rw [show parseVersion b!"x" = none from by decide +kernel] at this
    cases this

/-- DEL with everything in order: last plugin first, previous result from the cache, entry removed. -/
example : ∃ tr fs' o, Runs false (cfg.delNetworkList list rt) oneFile tr fs' o ∧
    (tr.execs.map (fun e => (e.path, e.stdin)), fs' key, o.toOption) =
      ([(b!"/bin/b", b!"{\"cniVersion\":\"1.0.0\",\"name\":\"net\",\"prevResult\":{\"cniVersion\":\"1.0.0\",\"dns\":{\"domain\":\"d\"}},\"type\":\"b\"}"),
        (b!"/bin/a", b!"{\"cniVersion\":\"1.0.0\",\"name\":\"net\",\"prevResult\":{\"cniVersion\":\"1.0.0\",\"dns\":{\"domain\":\"d\"}},\"type\":\"a\",\"x\":1}")],
        none, some ()) :=
  Prog.interp_exists (find := find) (exec := good)
    (fun tr fs' o => (tr.execs.map (fun e => (e.path, e.stdin)), fs' key, o.toOption)) (by decide +kernel)

/-- A DEL that fails at the last step leaves the entry. -/
example : ∃ tr fs' o, Runs false (cfg.delNetworkList list rt) oneFile tr fs' o ∧
    (tr.execs.map (fun e => e.path), fs' key, o.toOption) = ([b!"/bin/b", b!"/bin/a"], some entry, none) :=
  Prog.interp_exists (find := find) (exec := failA)
    (fun tr fs' o => (tr.execs.map (fun e => e.path), fs' key, o.toOption)) (by decide +kernel)

/-- A failing DEL with an unreadable entry removes it. -/
example : ∃ tr fs' o, Runs false (cfg.delNetworkList list rt) (FS.set noFiles key (some b!"junk")) tr fs' o ∧
    (tr.execs.map (fun e => e.path), fs' key, o.toOption) = ([b!"/bin/b"], none, none) :=
  Prog.interp_exists (find := find) (exec := failB)
    (fun tr fs' o => (tr.execs.map (fun e => e.path), fs' key, o.toOption)) (by decide +kernel)

/-- CHECK with everything in order. -/
example : ∃ tr fs' o, Runs false (cfg.checkNetworkList list rt) oneFile tr fs' o ∧
    (tr.execs.map (fun e => e.path), fs' key, o.toOption) = ([b!"/bin/a", b!"/bin/b"], some entry, some ()) :=
  Prog.interp_exists (find := find) (exec := good)
    (fun tr fs' o => (tr.execs.map (fun e => e.path), fs' key, o.toOption)) (by decide +kernel)

end Example

end Verif
