/- C48: what a crash leaves of the cache, and what can be done with it. -/
import Verif.Props.Gc
import Verif.Spec.Crash
import Verif.Libcni.Local
import Verif.Json.Prefix

namespace Verif
open Spec
set_option linter.unusedSimpArgs false

variable {flt : Bool} {fs fs' : FS} {tr : Trace}

/-! ### an interrupted ADD -/

theorem runs_cacheAdd_ok {c : CNIConfig} {result : Option Result} {config name p : Bytes} {rt : RuntimeConf} {info : CachedInfo}
    (hi : cachedInfoOf result config name rt = some info) (hp : c.cachePath name rt = .ok p) (fs : FS) :
    Runs flt (c.cacheAdd result config name rt) fs [⟨.mkdirAll (dirPath p), true⟩, ⟨.writeFile p info.json.print, true⟩]
      (fs.set p (some info.json.print)) (.ok ()) := by
  unfold CNIConfig.cacheAdd
  rw [hi]
  simp only [hp]
  exact .op (.mkdirAll ..) (.op (.writeFile ..) (.done _ _))

theorem take_cases (content : Bytes) (n : Nat) : content.take n = content ∨ Torn content (content.take n) := by
  by_cases h : n < content.length
  · exact .inr ⟨n, h, rfl⟩
  · exact .inl (List.take_of_length_le (by omega))

theorem crash_store {c : CNIConfig} {result : Option Result} {config name : Bytes} {rt : RuntimeConf} {β : Type} {f : GoErr → GoErr} {o : Out β}
    (h : Crash flt (((c.cacheAdd result config name rt).mapErr f).bind fun _ => .done o) fs tr fs') :
    tr.execs = [] ∧ (fs' = fs ∨ ∃ info p n, cachedInfoOf result config name rt = some info ∧ c.cachePath name rt = .ok p ∧
      fs' = fs.set p (some (info.json.print.take n))) := by
  rcases crash_bind h with h | ⟨a, tr1, tr2, fs1, rfl, h1, h2⟩
  · exact crash_cacheAdd (crash_mapErr h)
  · obtain ⟨rfl, rfl⟩ := crash_done h2
    obtain ⟨o1, h1, ho⟩ := runs_mapErr.1 h1
    obtain ⟨he, hx⟩ := runs_cacheAdd h1
    refine ⟨by rw [List.append_nil]; exact he, ?_⟩
    rcases hx with ⟨rfl, _⟩ | ⟨info, p, hi, hp, ⟨_, rfl⟩ | ⟨_, _, n, rfl⟩⟩
    · exact .inl rfl
    · exact .inr ⟨info, p, info.json.print.length, hi, hp, by rw [List.take_length]⟩
    · exact .inr ⟨info, p, n, hi, hp, rfl⟩

/-- The runtime crashes at any point of an ADD of a list. Every other file is as it was. The file of the attachment is as it
was, or else all the plugins had been executed and it holds what this ADD would have stored, whole or broken off. -/
theorem c48_add_list (c : CNIConfig) (list : NetConfList) (rt : RuntimeConf) (hrt : rt.OK) (hne : list.plugins ≠ []) (fs fs' : FS)
    (tr : Trace) (h : Crash flt (c.addNetworkList list rt) fs tr fs') :
    (∀ q, q ≠ entryPath c list.name rt → fs' q = fs q) ∧
      (fs' (entryPath c list.name rt) = fs (entryPath c list.name rt) ∨
        ∃ tr1 fs1 r content, Runs flt (c.addNetworkList list rt) fs tr1 fs1 (.ok (some r)) ∧ tr1.execs = tr.execs ∧
          fs1 (entryPath c list.name rt) = some content ∧
          OldNewOrTorn (fs (entryPath c list.name rt)) content (fs' (entryPath c list.name rt))) := by
  unfold CNIConfig.addNetworkList at h
  simp only [prog_bind_eq] at h
  rcases crash_bind h with h | ⟨r, tr1, tr2, fs1, rfl, h1, h2⟩
  · have := (addLoop_plugins.mono fun _ h => h.readonly).crash_readonly h
    subst this
    exact ⟨fun _ _ => rfl, .inl rfl⟩
  · obtain ⟨rfl, rs, hch, hok, -, -, hval⟩ := addLoop_runs hrt h1
    obtain ⟨he, hx⟩ := crash_store h2
    rcases hx with rfl | ⟨info, p, n, hi, hp, rfl⟩
    · exact ⟨fun _ _ => rfl, .inl rfl⟩
    · obtain ⟨hl, hr⟩ := hok r rfl
      rw [Option.or_none] at hr
      have hrs : rs ≠ [] := by
        intro e; rw [e] at hl
        exact hne (List.length_eq_zero_iff.1 hl.symm)
      have hx : tr1.execs ≠ [] := by
        intro hn
        obtain ⟨x, rs', rfl⟩ := List.exists_cons_of_ne_nil hrs
        obtain ⟨e, he, -⟩ := hch.results 0 x rfl
        rw [hn] at he; simp at he
      obtain ⟨x, hx'⟩ : ∃ x, r = some x := by
        rw [hr, List.getLast?_eq_some_getLast hrs]; exact ⟨_, rfl⟩
      subst hx'
      have hpl := plainNames_of_valid (hval hx)
      have hpe : p = entryPath c list.name rt := by
        have := cachePath_eq (c := c) hpl
        rw [hp] at this; exact Out.ok.inj this
      subst hpe
      refine ⟨fun q hq => FS.set_other _ _ hq, .inr ⟨tr1 ++ ([⟨.mkdirAll (dirPath (entryPath c list.name rt)), true⟩,
        ⟨.writeFile (entryPath c list.name rt) info.json.print, true⟩] ++ []), fs1.set (entryPath c list.name rt) (some info.json.print), x,
        info.json.print, ?_, ?_, FS.set_same .., ?_⟩⟩
      · unfold CNIConfig.addNetworkList
        simp only [prog_bind_eq]
        refine runs_bind.2 ⟨_, _, _, _, rfl, h1, ?_⟩
        exact runs_bind.2 ⟨_, _, _, _, rfl, runs_mapErr.2 ⟨_, runs_cacheAdd_ok hi hp _, rfl⟩, .done _ _⟩
      · rw [execs_append tr1 tr2, he, execs_append tr1]; rfl
      · rw [FS.set_same]
        rcases take_cases info.json.print n with h | h
        · exact .inr (.inl (by rw [h]))
        · exact .inr (.inr ⟨_, h, rfl⟩)

/-- The same for a single network. -/
theorem c48_add_network (c : CNIConfig) (net : PluginConfig) (rt : RuntimeConf) (hrt : rt.OK) (fs fs' : FS)
    (tr : Trace) (h : Crash flt (c.addNetwork net rt) fs tr fs') :
    (∀ q, q ≠ entryPath c net.network.name rt → fs' q = fs q) ∧
      (fs' (entryPath c net.network.name rt) = fs (entryPath c net.network.name rt) ∨
        ∃ tr1 fs1 r content, Runs flt (c.addNetwork net rt) fs tr1 fs1 (.ok r) ∧ tr1.execs = tr.execs ∧
          fs1 (entryPath c net.network.name rt) = some content ∧
          OldNewOrTorn (fs (entryPath c net.network.name rt)) content (fs' (entryPath c net.network.name rt))) := by
  unfold CNIConfig.addNetwork at h
  simp only [prog_bind_eq] at h
  rcases crash_bind h with h | ⟨r, tr1, tr2, fs1, rfl, h1, h2⟩
  · have := (addNetwork1_plugins.mono fun _ h => h.readonly).crash_readonly h
    subst this
    exact ⟨fun _ _ => rfl, .inl rfl⟩
  · obtain ⟨rfl, hx⟩ := addNetwork1_runs hrt h1
    obtain ⟨he, hy⟩ := crash_store h2
    rcases hy with rfl | ⟨info, p, n, hi, hp, rfl⟩
    · exact ⟨fun _ _ => rfl, .inl rfl⟩
    · rcases hx with ⟨-, hno⟩ | ⟨e, -, -, -, hval⟩
      · exact absurd rfl (hno r)
      have hpl := plainNames_of_valid hval
      have hpe : p = entryPath c net.network.name rt := by
        have := cachePath_eq (c := c) hpl
        rw [hp] at this; exact Out.ok.inj this
      subst hpe
      refine ⟨fun q hq => FS.set_other _ _ hq, .inr ⟨tr1 ++ ([⟨.mkdirAll (dirPath (entryPath c net.network.name rt)), true⟩,
        ⟨.writeFile (entryPath c net.network.name rt) info.json.print, true⟩] ++ []),
        fs1.set (entryPath c net.network.name rt) (some info.json.print), r,
        info.json.print, ?_, ?_, FS.set_same .., ?_⟩⟩
      · unfold CNIConfig.addNetwork
        simp only [prog_bind_eq]
        refine runs_bind.2 ⟨_, _, _, _, rfl, h1, ?_⟩
        exact runs_bind.2 ⟨_, _, _, _, rfl, runs_mapErr.2 ⟨_, runs_cacheAdd_ok hi hp _, rfl⟩, .done _ _⟩
      · rw [execs_append tr1 tr2, he, execs_append tr1]; rfl
      · rw [FS.set_same]
        rcases take_cases info.json.print n with h | h
        · exact .inr (.inl (by rw [h]))
        · exact .inr (.inr ⟨_, h, rfl⟩)

/-! ### an interrupted DEL or GC -/

/-- A program that writes no files leaves each file as it was, or removed. -/
theorem Prog.All.crash_removes {α : Type} {p : Prog α} (hp : p.All fun a => ∀ q b, a ≠ .writeFile q b) (h : Crash flt p fs tr fs')
    (q : Bytes) : fs' q = fs q ∨ fs' q = none := by
  induction h with
  | now => exact .inl rfl
  | tear p c k fs n => exact absurd rfl (hp.1 p c)
  | step hs hc ih =>
    rcases ih (hp.2 _) with h | h
    · rw [h]
      cases hs with
      | writeFile => exact absurd rfl (hp.1 _ _)
      | writeFileFails => exact .inl rfl
      | writeFileTorn => exact absurd rfl (hp.1 _ _)
      | @remove p _ =>
        by_cases hq : q = p
        · subst hq; exact .inr (FS.set_same ..)
        · exact .inl (FS.set_other _ _ hq)
      | _ => exact .inl rfl
    · exact .inr h

theorem crash_finish {c : CNIConfig} {name : Bytes} {rt : RuntimeConf}
    (h : Crash flt ((c.cacheDel name rt).attempt.bind fun _ => Prog.done (.ok ())) fs tr fs') :
    tr.execs = [] ∧ (fs' = fs ∨ ∃ p, c.cachePath name rt = .ok p ∧ fs' = fs.set p none) := by
  rcases crash_bind h with h | ⟨a, tr1, tr2, fs1, rfl, h1, h2⟩
  · exact crash_cacheDel (crash_attempt h)
  · obtain ⟨rfl, rfl⟩ := crash_done h2
    obtain ⟨o1, h1, -⟩ := runs_attempt.1 h1
    obtain ⟨he, -, hx⟩ := runs_cacheDel h1
    refine ⟨by rw [List.append_nil]; exact he, ?_⟩
    rcases hx with ⟨rfl, _⟩ | ⟨p, hp, rfl⟩
    · exact .inl rfl
    · exact .inr ⟨p, hp, rfl⟩

/-- What an interrupted end of a DEL did: the entry is removed only after every plugin has succeeded. -/
theorem crash_rest {c : CNIConfig} {name ver : Bytes} {prev : Option Result} {rt : RuntimeConf} (hrt : rt.OK) {ps : List PluginConfig}
    (h : Crash flt ((c.delLoop name ver prev rt ps).bind fun _ => (c.cacheDel name rt).attempt.bind fun _ => Prog.done (.ok ())) fs tr fs') :
    fs' = fs ∨ (AllSucceeded ps tr ∧ ∃ p, c.cachePath name rt = .ok p ∧ fs' = fs.set p none) := by
  rcases crash_bind h with h | ⟨a, tr1, tr2, fs1, rfl, h1, h2⟩
  · exact .inl ((delLoop_plugins.mono fun _ h => h.readonly).crash_readonly h)
  · obtain ⟨rfl, -, hall, -⟩ := delLoop_runs hrt h1
    obtain ⟨he, hx⟩ := crash_finish h2
    rcases hx with h | h
    · exact .inl h
    · refine .inr ⟨?_, h⟩
      have := hall.1 rfl
      unfold AllSucceeded at this ⊢
      rw [execs_append, he, List.append_nil]
      exact this

theorem crash_delNetworkList {c : CNIConfig} {list : NetConfList} {rt : RuntimeConf} (hrt : rt.OK)
    (h : Crash flt (c.delNetworkList list rt) fs tr fs') :
    fs' = fs ∨ ∃ p, c.cachePath list.name rt = .ok p ∧ fs' = fs.set p none ∧
      (AllSucceeded list.plugins tr ∨ (AtLeast list.cniVersion (0, 4, 0) ∧
        ∃ tr1 g, Runs flt (c.getNetworkListCachedResult list rt) fs tr1 fs (.err g))) := by
  have hlen : ∀ tr, AllSucceeded list.plugins.reverse tr ↔ AllSucceeded list.plugins tr := by intro tr; simp [AllSucceeded]
  unfold CNIConfig.delNetworkList at h
  simp only at h
  rcases gte_atLeast (v := list.cniVersion) reads_040 with ⟨hg, ha⟩ | ⟨hg, ha, hr⟩ | ⟨g, hg, ha, hr⟩
  · rw [hg] at h
    simp only at h
    rcases crash_bind h with h | ⟨prev, tr1, tr2, fs1, rfl, h1, h2⟩
    · unfold CNIConfig.delPrev at h
      rcases crash_bind h with h | ⟨x, tr1, tr2, fs1, rfl, h1, h2⟩
      · exact .inl ((getCachedResult_looks.mono fun a ⟨p, hp, _⟩ => by rw [hp]; rfl).crash_readonly (crash_attempt h))
      · obtain ⟨o1, h1, ho⟩ := runs_attempt.1 h1
        obtain ⟨rfl, -⟩ := runs_getCachedResult h1
        cases x with
        | ok prev => exact .inl (crash_done h2).2
        | error g =>
          have ho1 : o1 = .err g := by cases o1 <;> simp_all [attemptOut]
          subst ho1
          simp only at h2
          rcases crash_bind h2 with h2 | ⟨a, tr3, tr4, fs3, rfl, h3, h4⟩
          · rcases (crash_cacheDel (crash_attempt h2)).2 with h | ⟨p, hp, h⟩
            · exact .inl h
            · exact .inr ⟨p, hp, h, .inr ⟨ha, _, _, h1⟩⟩
          · obtain ⟨-, rfl⟩ := crash_done h4
            obtain ⟨o3, h3, -⟩ := runs_attempt.1 h3
            obtain ⟨-, -, hx⟩ := runs_cacheDel h3
            rcases hx with ⟨rfl, _⟩ | ⟨p, hp, rfl⟩
            · exact .inl rfl
            · exact .inr ⟨p, hp, rfl, .inr ⟨ha, _, _, h1⟩⟩
    · unfold CNIConfig.delPrev at h1
      obtain ⟨tr3, tr4, fs3, o3, rfl, h3, h4⟩ := runs_bind.1 h1
      obtain ⟨o1, h3', rfl⟩ := runs_attempt.1 h3
      obtain ⟨rfl, he, -⟩ := runs_getCachedResult h3'
      have hrest := crash_rest hrt h2
      cases o1 with
      | panic => obtain ⟨-, -, h4⟩ := h4; cases h4
      | ok x =>
        obtain ⟨rfl, rfl, -⟩ := runs_done.1 h4
        rcases hrest with h | ⟨hs, p, hp, h⟩
        · exact .inl h
        · refine .inr ⟨p, hp, h, .inl ?_⟩
          rw [hlen] at hs
          unfold AllSucceeded at hs ⊢
          rw [List.append_nil, execs_append, he]
          exact hs
      | err g =>
        simp only [attemptOut, Follows] at h4
        obtain ⟨tr5, tr6, fs5, o5, rfl, h5, h6⟩ := runs_bind.1 h4
        obtain ⟨o6, h5', rfl⟩ := runs_attempt.1 h5
        obtain ⟨-, hnp, hx⟩ := runs_cacheDel h5'
        have hfs : fs1 = fs5 := by
          cases o6 with
          | panic => exact absurd rfl hnp
          | ok _ => exact (runs_done.1 h6).2.1
          | err _ => exact (runs_done.1 h6).2.1
        subst hfs
        rcases hx with ⟨rfl, _⟩ | ⟨p, hp, rfl⟩
        · rcases hrest with h | ⟨hs, p, hp, h⟩
          · exact .inl h
          · exact .inr ⟨p, hp, h, .inr ⟨ha, _, _, h3'⟩⟩
        · rcases hrest with h | ⟨hs, p', hp', h⟩
          · exact .inr ⟨p, hp, h, .inr ⟨ha, _, _, h3'⟩⟩
          · rw [hp] at hp'; cases hp'
            rw [FS.set_set] at h
            exact .inr ⟨p, hp, h, .inr ⟨ha, _, _, h3'⟩⟩
  · rw [hg] at h
    simp only at h
    rcases crash_rest hrt h with h | ⟨hs, p, hp, h⟩
    · exact .inl h
    · exact .inr ⟨p, hp, h, .inl ((hlen _).1 hs)⟩
  · rw [hg] at h
    exact .inl (crash_done h).2

/-- The runtime crashes at any point of a DEL of a list. Every other file is as it was. The entry of the attachment is as it was
or gone, never partly; and it is gone only if every plugin had been executed successfully, or if it had been unreadable. -/
theorem c48_del_list (c : CNIConfig) (list : NetConfList) (rt : RuntimeConf) (hrt : rt.OK) (hn : PlainNames list.name rt) (fs fs' : FS)
    (tr : Trace) (h : Crash flt (c.delNetworkList list rt) fs tr fs') :
    (∀ q, q ≠ entryPath c list.name rt → fs' q = fs q) ∧
      (fs' (entryPath c list.name rt) = fs (entryPath c list.name rt) ∨
        (fs' (entryPath c list.name rt) = none ∧
          (AllSucceeded list.plugins tr ∨ (AtLeast list.cniVersion (0, 4, 0) ∧
            ∃ tr1 g, Runs flt (c.getNetworkListCachedResult list rt) fs tr1 fs (.err g))))) := by
  rcases crash_delNetworkList hrt h with rfl | ⟨p, hp, rfl, hx⟩
  · exact ⟨fun _ _ => rfl, .inl rfl⟩
  · rw [cachePath_eq hn] at hp
    cases hp
    exact ⟨fun q hq => FS.set_other _ _ hq, .inr ⟨FS.set_same .., hx⟩⟩

/-- The same for a single network, where an unreadable entry is never removed. -/
theorem c48_del_network (c : CNIConfig) (net : PluginConfig) (rt : RuntimeConf) (hrt : rt.OK) (hn : PlainNames net.network.name rt)
    (fs fs' : FS) (tr : Trace) (h : Crash flt (c.delNetwork net rt) fs tr fs') :
    (∀ q, q ≠ entryPath c net.network.name rt → fs' q = fs q) ∧
      (fs' (entryPath c net.network.name rt) = fs (entryPath c net.network.name rt) ∨
        (fs' (entryPath c net.network.name rt) = none ∧ AllSucceeded [net] tr)) := by
  have hrest : ∀ {prev : Option Result} {fs fs' : FS} {tr : Trace},
      Crash flt ((c.runNetwork1 b!"DEL" net.network.name net.network.cniVersion net prev rt).bind
        fun _ => (c.cacheDel net.network.name rt).attempt.bind fun _ => Prog.done (.ok ())) fs tr fs' →
      fs' = fs ∨ (AllSucceeded [net] tr ∧ ∃ p, c.cachePath net.network.name rt = .ok p ∧ fs' = fs.set p none) := by
    intro prev fs fs' tr h
    rcases crash_bind h with h | ⟨a, tr1, tr2, fs1, rfl, h1, h2⟩
    · exact .inl ((runNetwork1_plugins.mono fun _ h => h.readonly).crash_readonly h)
    · obtain ⟨rfl, hx⟩ := runNetwork1_runs hrt h1
      obtain ⟨he, hy⟩ := crash_finish h2
      rcases hy with h | h
      · exact .inl h
      · refine .inr ⟨?_, h⟩
        rcases hx with ⟨-, hno⟩ | ⟨e, hee, -, ho⟩
        · exact absurd rfl (hno a)
        · unfold AllSucceeded
          rw [execs_append, he, hee]
          refine ⟨rfl, ?_⟩
          intro e' he'
          simp only [List.append_nil, List.mem_singleton] at he'
          subst he'
          unfold runOutcome at ho
          unfold Succeeded
          cases hr : e'.resp with
          | ok out => exact ⟨out, rfl⟩
          | error g => rw [hr] at ho; cases ho
  have key : fs' = fs ∨ (AllSucceeded [net] tr ∧ ∃ p, c.cachePath net.network.name rt = .ok p ∧ fs' = fs.set p none) := by
    unfold CNIConfig.delNetwork at h
    simp only at h
    split at h
    · exact .inl (crash_done h).2
    · exact .inl (crash_done h).2
    · exact hrest h
    · rcases crash_bind h with h | ⟨prev, tr1, tr2, fs1, rfl, h1, h2⟩
      · exact .inl ((getCachedResult_looks.mono fun a ⟨p, hp, _⟩ => by rw [hp]; rfl).crash_readonly (crash_mapErr h))
      · obtain ⟨o1, h1, -⟩ := runs_mapErr.1 h1
        obtain ⟨rfl, he, -⟩ := runs_getCachedResult h1
        rcases hrest h2 with h | ⟨hs, h⟩
        · exact .inl h
        · refine .inr ⟨?_, h⟩
          unfold AllSucceeded at hs ⊢
          rw [execs_append, he]
          exact hs
  rcases key with rfl | ⟨hs, p, hp, rfl⟩
  · exact ⟨fun _ _ => rfl, .inl rfl⟩
  · rw [cachePath_eq hn] at hp
    cases hp
    exact ⟨fun q hq => FS.set_other _ _ hq, .inr ⟨FS.set_same .., hs⟩⟩

theorem gcDelLoop_acts {c : CNIConfig} {list : NetConfList} {valid : Option (List GCAttachment)} {atts : List Attachment} :
    ∀ {errs : List GoErr}, (c.gcDelLoop list valid atts errs).All fun a => a.writes = none ∨
      ∃ x ∈ atts, Stale list.name valid x ∧ ∃ p, c.cachePath list.name (rtOf x) = .ok p ∧ a = .remove p := by
  induction atts with
  | nil => intro errs; trivial
  | cons x atts ih =>
    intro errs
    have ih' : ∀ {errs : List GoErr}, (c.gcDelLoop list valid atts errs).All fun a => a.writes = none ∨
        ∃ y ∈ x :: atts, Stale list.name valid y ∧ ∃ p, c.cachePath list.name (rtOf y) = .ok p ∧ a = .remove p :=
      ih.mono fun a h => h.imp id fun ⟨y, hy, hz⟩ => ⟨y, List.mem_cons_of_mem _ hy, hz⟩
    unfold CNIConfig.gcDelLoop
    split
    · rename_i hs
      refine Prog.All.bind (Prog.All.attempt (delNetworkList_acts.mono fun a h => ?_)) fun r => ih'
      rcases h with h | ⟨p, hp, rfl | rfl⟩
      · exact .inl h.readonly
      · exact .inl rfl
      · exact .inr ⟨x, List.mem_cons_self .., (isStale_iff).1 hs, p, hp, rfl⟩
    · exact ih'

/-- The runtime crashes at any point of a GC: the only files changed are entries of stale attachments of the network, which are
gone; all others are as they were. -/
theorem c48_gc (c : CNIConfig) (list : NetConfList) (valid : Option (List GCAttachment)) (fs fs' : FS) (tr : Trace)
    (h : Crash flt (c.gcNetworkList list valid) fs tr fs') (hw : OwnNamed c fs) (q : Bytes) (hq : fs' q ≠ fs q) :
    fs' q = none ∧ ∃ n a, IsComp n ∧ q = childPath (resultsDir c) n ∧ attachmentIn c fs n = some a ∧ Stale list.name valid a := by
  unfold CNIConfig.gcNetworkList at h
  split at h
  · exact absurd (by rw [(crash_done h).2]) hq
  · have hl := getCachedAttachments_looks (c := c) (cid := [])
    rcases crash_bind h with h | ⟨r, tr1, tr2, fs1, rfl, h1, h2⟩
    · exact absurd (by rw [(hl.mono fun _ h => h.1).crash_readonly (crash_attempt h)]) hq
    · obtain ⟨o1, h1, ho⟩ := runs_attempt.1 h1
      obtain ⟨rfl, -, -, hmem⟩ := getCachedAttachments_mem h1
      cases r with
      | error g => exact absurd (by rw [(crash_done h2).2]) hq
      | ok atts =>
        have ho1 : o1 = .ok atts := by cases o1 <;> simp_all [attemptOut]
        have hall : ((c.gcDelLoop list valid atts []).bind fun errs =>
            if atLeast110 list.cniVersion then
              (c.gcLoop list.name list.cniVersion valid list.plugins errs).bind fun errs => Prog.lift (joinErrs errs)
            else Prog.lift (joinErrs errs)).All fun a => a.writes = none ∨
              ∃ x ∈ atts, Stale list.name valid x ∧ ∃ p, c.cachePath list.name (rtOf x) = .ok p ∧ a = .remove p := by
          refine gcDelLoop_acts.bind fun errs => ?_
          split
          · exact (gcLoop_plugins.mono fun _ h => .inl h.readonly).bind fun _ => trivial
          · trivial
        have hrem := (hall.mono fun a h => show ∀ q b, a ≠ .writeFile q b by
          rintro q b rfl
          rcases h with h | ⟨_, _, _, _, _, h⟩
          · cases h
          · cases h).crash_removes h2 q
        refine ⟨hrem.resolve_left hq, ?_⟩
        have hex : ∃ x ∈ atts, Stale list.name valid x ∧ c.cachePath list.name (rtOf x) = .ok q := by
          refine Classical.byContradiction fun hno => hq ?_
          refine (hall.mono fun a h => ?_).crash_frame h2
          rcases h with h | ⟨x, hx, hst, p, hp, rfl⟩
          · rw [h]; simp
          · intro he
            cases he
            exact hno ⟨x, hx, hst, hp⟩
        obtain ⟨x, hx, hst, hp⟩ := hex
        obtain ⟨n, hn, ha⟩ := hmem atts ho1 x hx
        rw [← hst.1] at hp
        exact ⟨n, x, hn, cachePath_own hn (hw n x hn ha) hp, ha, hst⟩

end Verif
