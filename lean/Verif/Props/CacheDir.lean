/- Which cache directory is used (C80). -/
import Verif.Props.Gc
import Verif.Props.CacheUse

namespace Verif
open Spec

/-- The results directory of calls made with `rt`, as that of a runtime set to their directory. -/
theorem resultsDir_of (c : CNIConfig) (rt : RuntimeConf) : cleanPath (cacheRoot c rt ++ b!"/results") = resultsDir { c with cacheDir := cacheRoot c rt } := by
  unfold resultsDir
  rw [show cacheRoot { c with cacheDir := cacheRoot c rt } {} = cacheRoot c rt from if_pos (cacheRoot_ne_nil _ _)]

/-- Files of different results directories are different. -/
theorem child_dir {c d : CNIConfig} {m n : Bytes} (hm : IsComp m) (hn : IsComp n) (h : childPath (resultsDir c) m = childPath (resultsDir d) n) :
    resultsDir c = resultsDir d := by
  rw [childPath_results, childPath_results] at h
  have h47m := hm.2.2.2
  have h47n := hn.2.2.2
  have key : ∀ (a b : Bytes), a ++ 47 :: m = b ++ 47 :: n → a = b := by
    intro a b hab
    rw [List.append_eq_append_iff] at hab
    rcases hab with ⟨x, rfl, hx⟩ | ⟨x, rfl, hx⟩
    · cases x with
      | nil => simp
      | cons y x =>
        rw [List.cons_append, List.cons.injEq] at hx
        exact absurd (by rw [hx.2]; simp) h47m
    · cases x with
      | nil => simp
      | cons y x =>
        rw [List.cons_append, List.cons.injEq] at hx
        exact absurd (by rw [hx.2]; simp) h47n
  exact key _ _ h

theorem attachmentIn_same {c : CNIConfig} {f g : FS} (h : ∀ n, IsComp n → g (childPath (resultsDir c) n) = f (childPath (resultsDir c) n)) {n : Bytes}
    (hn : IsComp n) : attachmentIn c g n = attachmentIn c f n := by
  unfold attachmentIn; rw [h n hn]

theorem Spec.Listed.transfer {c : CNIConfig} {f g : FS} {keep : Attachment → Prop} {names : List Bytes} {l : List Attachment}
    (h : ∀ n, IsComp n → g (childPath (resultsDir c) n) = f (childPath (resultsDir c) n)) (hl : Listed c g keep names l) : Listed c f keep names l := by
  refine ⟨hl.sorted, fun n => ?_, ?_⟩
  · rw [hl.mem]
    constructor
    · rintro ⟨hn, ha⟩; rw [attachmentIn_same h hn] at ha; exact ⟨hn, ha⟩
    · rintro ⟨hn, ha⟩; rw [← attachmentIn_same h hn] at ha; exact ⟨hn, ha⟩
  · rw [← hl.same]
    exact List.map_congr_left fun n hn => (attachmentIn_same h ((hl.mem n).1 hn).1).symm

theorem other_dir {c : CNIConfig} {rt : RuntimeConf} (hd : cleanPath (cacheRoot c rt ++ b!"/results") ≠ resultsDir c) {q n : Bytes}
    (hq : InResults c rt q) (hn : IsComp n) : q ≠ childPath (resultsDir c) n := by
  obtain ⟨m, hm, rfl⟩ := hq
  rw [resultsDir_of] at hd ⊢
  exact fun he => hd (child_dir hm hn he)

/-- A successful ADD leaves its entry in `results` inside the directory the runtime was set to, or else the one the call was given, or else
`/var/lib/cni`. -/
theorem c80_where (c : CNIConfig) (list : NetConfList) (rt : RuntimeConf) (hrt : rt.OK) (fs fs' : FS) (tr : Trace) (r : Result)
    (h : Runs flt (c.addNetworkList list rt) fs tr fs' (.ok (some r))) (root : Bytes)
    (hroot : (c.cacheDir ≠ [] ∧ root = c.cacheDir) ∨ (c.cacheDir = [] ∧ rt.cacheDir ≠ [] ∧ root = rt.cacheDir) ∨
      (c.cacheDir = [] ∧ rt.cacheDir = [] ∧ root = b!"/var/lib/cni")) :
    ∃ b, fs' = fs.set (cleanPath (root ++ b!"/results") ++ b!"/" ++ list.name ++ b!"-" ++ rt.containerID ++ b!"-" ++ rt.ifName) (some b) := by
  obtain ⟨-, -, info, -, hfs⟩ := addNetworkList_stored hrt h
  have hr : cacheRoot c rt = root := by
    unfold cacheRoot
    rcases hroot with ⟨h1, rfl⟩ | ⟨h1, h2, rfl⟩ | ⟨h1, h2, rfl⟩ <;> simp [*]
  refine ⟨info.json.print, ?_⟩
  rw [hfs]
  unfold entryPath
  rw [resultsDir_of, childPath_results, ← resultsDir_of, hr]
  simp

/-- A call with its own cache directory, on a runtime without one, does not show: an ADD with a cache directory other than the
listing's changes no listing. -/
theorem c80_unlisted (c : CNIConfig) (list : NetConfList) (rt : RuntimeConf) (hrt : rt.OK) (hne : list.plugins ≠ [])
    (hd : cleanPath (cacheRoot c rt ++ b!"/results") ≠ resultsDir c) (fs fs' f1 f2 : FS) (tr tr1 tr2 : Trace) (o : Out (Option Result))
    (o1 o2 : Out (List Attachment)) (h : Runs flt (c.addNetworkList list rt) fs tr fs' o)
    (h1 : Runs false (c.getCachedAttachments []) fs tr1 f1 o1) (h2 : Runs false (c.getCachedAttachments []) fs' tr2 f2 o2) : o2 = o1 := by
  have hs : ∀ n, IsComp n → fs' (childPath (resultsDir c) n) = fs (childPath (resultsDir c) n) := fun n hn => by
    refine Classical.byContradiction fun hq => ?_
    exact other_dir hd (c20_add_list c list rt hrt hne fs fs' tr o h _ hq).2 hn rfl
  obtain ⟨-, -, n1, l1, rfl, hl1⟩ := c21_all c fs f1 tr1 o1 h1
  obtain ⟨-, -, n2, l2, rfl, hl2⟩ := c21_all c fs' f2 tr2 o2 h2
  rw [hl1.unique (hl2.transfer hs)]

/-- And garbage collection changes nothing in such a directory, however stale its attachments are. -/
theorem c80_gc (c : CNIConfig) (list : NetConfList) (valid : Option (List GCAttachment)) (rt : RuntimeConf)
    (hd : cleanPath (cacheRoot c rt ++ b!"/results") ≠ resultsDir c) (fs fs' : FS) (tr : Trace) (o : Out Unit) (hw : OwnNamed c fs)
    (h : Runs flt (c.gcNetworkList list valid) fs tr fs' o) (q : Bytes) (hq : InResults c rt q) : fs' q = fs q := by
  refine Classical.byContradiction fun hx => ?_
  obtain ⟨-, n, a, hn, rfl, -⟩ := c22_files c list valid fs fs' tr o h hw q hx
  exact other_dir hd hq hn rfl

theorem cachePath_dir {c : CNIConfig} (hc : c.cacheDir ≠ []) (name : Bytes) (rt : RuntimeConf) (d : Bytes) :
    c.cachePath name { rt with cacheDir := d } = c.cachePath name rt := by
  simp [CNIConfig.cachePath, CNIConfig.getCacheDir, hc]

theorem addLoop_dir {c : CNIConfig} (name ver : Bytes) (rt : RuntimeConf) (d : Bytes) (ps : List PluginConfig) (prev : Option Result) :
    c.addLoop name ver { rt with cacheDir := d } ps prev = c.addLoop name ver rt ps prev := by
  induction ps generalizing prev with
  | nil => rfl
  | cons p ps ih =>
    unfold CNIConfig.addLoop
    simp only [ih]
    rfl

theorem checkLoop_dir {c : CNIConfig} (name ver : Bytes) (rt : RuntimeConf) (d : Bytes) (ps : List PluginConfig) (prev : Option Result) :
    c.checkLoop name ver prev { rt with cacheDir := d } ps = c.checkLoop name ver prev rt ps := by
  induction ps with
  | nil => rfl
  | cons p ps ih =>
    unfold CNIConfig.checkLoop
    simp only [ih]
    rfl

theorem delLoop_dir {c : CNIConfig} (name ver : Bytes) (rt : RuntimeConf) (d : Bytes) (ps : List PluginConfig) (prev : Option Result) :
    c.delLoop name ver prev { rt with cacheDir := d } ps = c.delLoop name ver prev rt ps := by
  induction ps with
  | nil => rfl
  | cons p ps ih =>
    unfold CNIConfig.delLoop
    simp only [ih]
    rfl

theorem getCachedResult_dir {c : CNIConfig} (hc : c.cacheDir ≠ []) (name ver : Bytes) (rt : RuntimeConf) (d : Bytes) :
    c.getCachedResult name ver { rt with cacheDir := d } = c.getCachedResult name ver rt := by
  unfold CNIConfig.getCachedResult; rw [cachePath_dir hc]

theorem cacheDel_dir {c : CNIConfig} (hc : c.cacheDir ≠ []) (name : Bytes) (rt : RuntimeConf) (d : Bytes) :
    c.cacheDel name { rt with cacheDir := d } = c.cacheDel name rt := by
  unfold CNIConfig.cacheDel; rw [cachePath_dir hc]

theorem cacheAdd_dir {c : CNIConfig} (hc : c.cacheDir ≠ []) (r : Option Result) (conf name : Bytes) (rt : RuntimeConf) (d : Bytes) :
    c.cacheAdd r conf name { rt with cacheDir := d } = c.cacheAdd r conf name rt := by
  unfold CNIConfig.cacheAdd
  rw [cachePath_dir hc]
  rfl

/-- On a runtime with a cache directory the per-call setting has no effect at all: with any setting, ADD, CHECK, DEL and the lookup of
the cached result are the same sequences of calls with the same outcomes. -/
theorem c80_ignored (c : CNIConfig) (hc : c.cacheDir ≠ []) (list : NetConfList) (rt : RuntimeConf) (d : Bytes) (fs fs' : FS) (tr : Trace) :
    (∀ o, Runs flt (c.addNetworkList list { rt with cacheDir := d }) fs tr fs' o ↔ Runs flt (c.addNetworkList list rt) fs tr fs' o) ∧
    (∀ o, Runs flt (c.checkNetworkList list { rt with cacheDir := d }) fs tr fs' o ↔ Runs flt (c.checkNetworkList list rt) fs tr fs' o) ∧
    (∀ o, Runs flt (c.delNetworkList list { rt with cacheDir := d }) fs tr fs' o ↔ Runs flt (c.delNetworkList list rt) fs tr fs' o) ∧
    (∀ o, Runs flt (c.getNetworkListCachedResult list { rt with cacheDir := d }) fs tr fs' o ↔
      Runs flt (c.getNetworkListCachedResult list rt) fs tr fs' o) := by
  refine ⟨fun o => ?_, fun o => ?_, fun o => ?_, fun o => ?_⟩
  · unfold CNIConfig.addNetworkList; simp only [addLoop_dir, cacheAdd_dir hc]
  · unfold CNIConfig.checkNetworkList; simp only [checkLoop_dir, getCachedResult_dir hc]
  · unfold CNIConfig.delNetworkList CNIConfig.delPrev; simp only [delLoop_dir, getCachedResult_dir hc, cacheDel_dir hc]
  · unfold CNIConfig.getNetworkListCachedResult; rw [getCachedResult_dir hc]

/-- The same for a single configuration. -/
theorem c80_ignored_network (c : CNIConfig) (hc : c.cacheDir ≠ []) (net : PluginConfig) (rt : RuntimeConf) (d : Bytes) (fs fs' : FS) (tr : Trace) :
    (∀ o, Runs flt (c.addNetwork net { rt with cacheDir := d }) fs tr fs' o ↔ Runs flt (c.addNetwork net rt) fs tr fs' o) ∧
    (∀ o, Runs flt (c.checkNetwork net { rt with cacheDir := d }) fs tr fs' o ↔ Runs flt (c.checkNetwork net rt) fs tr fs' o) ∧
    (∀ o, Runs flt (c.delNetwork net { rt with cacheDir := d }) fs tr fs' o ↔ Runs flt (c.delNetwork net rt) fs tr fs' o) ∧
    (∀ o, Runs flt (c.getNetworkCachedResult net { rt with cacheDir := d }) fs tr fs' o ↔
      Runs flt (c.getNetworkCachedResult net rt) fs tr fs' o) := by
  have h1 : ∀ verb name ver prev, c.runNetwork1 verb name ver net prev { rt with cacheDir := d } = c.runNetwork1 verb name ver net prev rt :=
    fun _ _ _ _ => rfl
  have h2 : ∀ name ver prev, c.addNetwork1 name ver net prev { rt with cacheDir := d } = c.addNetwork1 name ver net prev rt := fun _ _ _ => rfl
  refine ⟨fun o => ?_, fun o => ?_, fun o => ?_, fun o => ?_⟩
  · unfold CNIConfig.addNetwork; simp only [h2, cacheAdd_dir hc]
  · unfold CNIConfig.checkNetwork; simp only [h1, getCachedResult_dir hc]
  · unfold CNIConfig.delNetwork; simp only [h1, getCachedResult_dir hc, cacheDel_dir hc]
  · unfold CNIConfig.getNetworkCachedResult; rw [getCachedResult_dir hc]

/-- So calls for one attachment that disagree about the directory do not see each other: an ADD changes nothing for a lookup elsewhere. -/
theorem c80_elsewhere (c : CNIConfig) (list list2 : NetConfList) (rt rt2 : RuntimeConf) (hrt : rt.OK) (hne : list.plugins ≠ [])
    (hn : PlainNames list2.name rt2) (hd : cleanPath (cacheRoot c rt ++ b!"/results") ≠ cleanPath (cacheRoot c rt2 ++ b!"/results"))
    (fs fs' f1 f2 : FS) (tr tr1 tr2 : Trace) (o : Out (Option Result)) (o1 o2 : Out (Option Result))
    (h : Runs flt (c.addNetworkList list rt) fs tr fs' o) (h1 : Runs false (c.getNetworkListCachedResult list2 rt2) fs tr1 f1 o1)
    (h2 : Runs false (c.getNetworkListCachedResult list2 rt2) fs' tr2 f2 o2) : o2 = o1 := by
  have hp := cachePath_eq (c := c) hn
  rw [(runs_getCachedResult h1).2.2.1 rfl _ hp, (runs_getCachedResult h2).2.2.1 rfl _ hp]
  congr 1
  refine Classical.byContradiction fun hq => ?_
  obtain ⟨m, hm, he⟩ := (c20_add_list c list rt hrt hne fs fs' tr o h _ hq).2
  unfold entryPath at he
  rw [resultsDir_of, resultsDir_of] at he
  rw [resultsDir_of, resultsDir_of] at hd
  exact hd (child_dir (cacheFileName_comp hn.name.2 hn.cid.2 hn.ifn.2) hm he).symm

/-! ### Examples -/
namespace Example

/-- A runtime without a cache directory. Test data; models no code. -/
def bareCfg : CNIConfig := { path := [b!"/bin"] }
/-- Test data; models no code. -/
def rtDir : RuntimeConf := { rt with cacheDir := b!"/tmp/c" }

example : cleanPath (cacheRoot bareCfg rtDir ++ b!"/results") ≠ resultsDir bareCfg ∧ rtDir.OK ∧ list.plugins ≠ [] :=
  ⟨by decide +kernel, ⟨rt_ok.1, rt_ok.2⟩, by decide⟩

/-- Added with a directory of its own: not in the listing, and a DEL without the setting leaves the entry there. -/
example : ∃ tr1 tr2 f1 f2 r, Runs false (bareCfg.addNetworkList list rtDir) noFiles tr1 f1 (.ok (some r)) ∧
    Runs false (bareCfg.delNetworkList list Example.rt) f1 tr2 f2 (.ok ()) ∧ (f2 b!"/tmp/c/results/net-c1-eth0").isSome = true := by
  obtain ⟨tr, f2, o2, h, e⟩ := Prog.interp_exists (flt := false) (fs := noFiles) (find := find) (exec := good)
    (p := (bareCfg.addNetworkList list rtDir).bind fun x => match x with
      | some _ => bareCfg.delNetworkList list Example.rt
      | none => .done (.err (.text [])))
    (b := (some (), true)) (fun _ f o => (o.toOption, (f b!"/tmp/c/results/net-c1-eth0").isSome)) (by decide +kernel)
  simp only [Prod.mk.injEq] at e
  obtain ⟨tr1, tr2, f1, o1, rfl, h1, h2⟩ := runs_bind.1 h
  cases o1 with
  | err g => obtain ⟨-, -, rfl⟩ := h2; simp [Out.toOption] at e
  | panic => obtain ⟨-, -, rfl⟩ := h2; simp [Out.toOption] at e
  | ok x =>
    cases x with
    | none => obtain ⟨-, -, rfl⟩ := runs_done.1 h2; simp [Out.toOption] at e
    | some r =>
      have ho : o2 = .ok () := by cases o2 <;> simp_all [Out.toOption]
      subst ho
      exact ⟨tr1, tr2, f1, f2, r, h1, h2, e.2⟩

end Example

end Verif
