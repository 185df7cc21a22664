/- Results stored by earlier releases of the library (C79). -/
import Verif.Spec.Legacy
import Verif.Props.Again
import Verif.Props.Provenance
import Verif.Props.ResultJson

namespace Verif
open Spec

/-- The names of the members of a result document. -/
theorem resultDoc_keys {r : Result} {j : Json} (h : r.json = some j) : ∃ ms, j = .obj ms ∧
    ∀ m ∈ ms, m.1 ∈ [b!"cniVersion", b!"ip4", b!"ip6", b!"interfaces", b!"ips", b!"routes", b!"dns"] := by
  have hj : ∀ {m : Bytes × Json} {c : Bool} {k : Bytes} {v : Json}, m ∈ jopt c k v → m.1 = k := by
    intro m c k v h
    cases c with
    | false => cases h
    | true => simp only [jopt, if_true, List.mem_singleton] at h; rw [h]
  have h100 : ∀ x : R100, ∀ m ∈ x.members, m.1 ∈ [b!"cniVersion", b!"ip4", b!"ip6", b!"interfaces", b!"ips", b!"routes", b!"dns"] := by
    intro x m hm
    simp only [R100.members, List.mem_append] at hm
    rcases hm with (((hm | hm) | hm) | hm) | hm
    all_goals first
      | (rw [hj hm]; simp; done)
      | (rw [List.mem_singleton] at hm; rw [hm]; simp)
  unfold Result.json at h
  split at h
  · split at h
    · rename_i x
      simp only [Option.some.injEq] at h
      refine ⟨_, h.symm, fun m hm => ?_⟩
      simp only [R020.members, List.mem_append] at hm
      rcases hm with ((hm | hm) | hm) | hm
      all_goals first
        | (rw [hj hm]; simp; done)
        | (rw [List.mem_singleton] at hm; rw [hm]; simp)
    · rename_i x
      simp only [Option.some.injEq] at h
      refine ⟨_, h.symm, fun m hm => ?_⟩
      simp only [R040.members, List.mem_append] at hm
      rcases hm with (((hm | hm) | hm) | hm) | hm
      all_goals first
        | (rw [hj hm]; simp; done)
        | (rw [List.mem_singleton] at hm; rw [hm]; simp)
    · rename_i x _
      unfold R100.json at h
      split at h
      · rename_i ms hms
        simp only [Option.some.injEq] at h
        have hk : ∀ m ∈ ms, m.1 ∈ [b!"cniVersion", b!"ip4", b!"ip6", b!"interfaces", b!"ips", b!"routes", b!"dns"] := by
          simp only [Json.toAny, Option.map_eq_some_iff] at hms
          obtain ⟨l, hl, he⟩ := hms
          cases he
          intro m hm
          obtain ⟨m0, hm0, h1, -⟩ := toAnyMembers_mem hl m (ofList_mem m hm)
          rw [← h1]
          exact h100 x m0 hm0
        refine ⟨_, h.symm, fun m hm => ?_⟩
        split at hm
        · exact hk m (List.mem_filter.1 hm).1
        · exact hk m hm
      · cases h
  · cases h

/-- A document without a `kind` is not an entry of the current format. -/
theorem kindless {b : Bytes} {ms : List (Bytes × Json)} (hp : Json.parse b = some (.obj ms)) (hk : getField cachedFields b!"kind" ms = []) :
    ∀ info, readCachedInfo b = some info → info.kind = [] := by
  intro info h
  unfold readCachedInfo at h
  rw [hp, Option.bind_some] at h
  simp only [decCachedInfo, structMembers, Option.bind_eq_bind, Option.bind_some, hk, decAll, Option.bind_eq_some_iff] at h
  obtain ⟨k, hk0, _, _, _, _, _, _, _, _, _, _, _, _, _, _, _, _, h⟩ := h
  simp only [Option.some.injEq] at h
  rw [← h]
  exact (Option.some.inj hk0).symm

theorem resultFile_kindless {b : Bytes} {r : Result} (h : ResultFile b r) : ∀ info, readCachedInfo b = some info → info.kind = [] := by
  obtain ⟨-, -, j, hj, rfl⟩ := h
  have hp := Json.parse_print_clean _ (Result.json_numsOK hj)
  obtain ⟨ms, rfl, hks⟩ := resultDoc_keys hj
  rw [Json.clean] at hp
  exact kindless hp (key_unmatched (by decide) hks)

theorem resultFile_create {b : Bytes} {r : Result} (h : ResultFile b r) : createFromBytes b = .ok r := by
  obtain ⟨hw, ⟨e, hr, he⟩, j, hj, rfl⟩ := h
  obtain ⟨j', hj', h⟩ := c32_roundtrip_detect e r hw hr he
  rw [hj] at hj'; cases hj'
  exact h

theorem resultFile_current {b : Bytes} {r : Result} (h : ResultFile b r) : currentFormat b = none := by
  unfold currentFormat
  split
  · rename_i info hi
    rw [resultFile_kindless h info hi]; rfl
  · rfl

theorem resultFile_entry {b : Bytes} {r : Result} (h : ResultFile b r) : entryOf b = none := by
  unfold entryOf
  cases hi : readCachedInfo b with
  | none => rfl
  | some info =>
    rw [Option.bind_some, resultFile_kindless h info hi]; rfl

theorem resultFile_result {b ver : Bytes} {r : Result} (h : ResultFile b r) :
    (∀ r', r.getAsVersion ver = .ok r' → cachedResultOf ver (some b) = .ok (some r')) ∧
      ((∀ r', r.getAsVersion ver ≠ .ok r') → ∀ x, cachedResultOf ver (some b) ≠ .ok x) := by
  unfold cachedResultOf
  simp only [resultFile_current h, loadResult, resultFile_create h]
  constructor
  · intro r' hr
    show (((r.getAsVersion ver).wrapErr _) >>= _) = _
    rw [hr]; rfl
  · intro hn x hx
    replace hx : (((r.getAsVersion ver).wrapErr b!"failed to convert cached result to config version") >>= fun r' => Out.ok (some r')) = .ok x := hx
    cases hg : r.getAsVersion ver with
    | ok r' => exact hn _ hg
    | err e => rw [hg] at hx; cases hx
    | panic => rw [hg] at hx; cases hx

/-- The cached result of an attachment made with an earlier release: the stored result, converted to the version of the configuration;
an error if it cannot be converted. Nothing is executed or changed. -/
theorem c79_result (c : CNIConfig) (list : NetConfList) (rt : RuntimeConf) (hn : PlainNames list.name rt) (fs fs' : FS) (tr : Trace)
    (o : Out (Option Result)) (b : Bytes) (r : Result) (hb : fs (entryPath c list.name rt) = some b) (hf : ResultFile b r)
    (h : Runs false (c.getNetworkListCachedResult list rt) fs tr fs' o) :
    fs' = fs ∧ tr.execs = [] ∧ (∀ r', r.getAsVersion list.cniVersion = .ok r' → o = .ok (some r')) ∧
      ((∀ r', r.getAsVersion list.cniVersion ≠ .ok r') → ∀ x, o ≠ .ok x) := by
  obtain ⟨h1, h2, h3, -⟩ := runs_getCachedResult h
  have h3 := h3 rfl _ (cachePath_eq hn)
  rw [hb] at h3
  rw [h3]
  exact ⟨h1, h2, resultFile_result hf⟩

/-- The same for a single configuration. -/
theorem c79_result_network (c : CNIConfig) (net : PluginConfig) (rt : RuntimeConf) (hn : PlainNames net.network.name rt) (fs fs' : FS)
    (tr : Trace) (o : Out (Option Result)) (b : Bytes) (r : Result) (hb : fs (entryPath c net.network.name rt) = some b)
    (hf : ResultFile b r) (h : Runs false (c.getNetworkCachedResult net rt) fs tr fs' o) :
    fs' = fs ∧ tr.execs = [] ∧ (∀ r', r.getAsVersion net.network.cniVersion = .ok r' → o = .ok (some r')) ∧
      ((∀ r', r.getAsVersion net.network.cniVersion ≠ .ok r') → ∀ x, o ≠ .ok x) := by
  obtain ⟨h1, h2, h3, -⟩ := runs_getCachedResult h
  have h3 := h3 rfl _ (cachePath_eq hn)
  rw [hb] at h3
  rw [h3]
  exact ⟨h1, h2, resultFile_result hf⟩

/-- CHECK of such an attachment runs the plugins with the stored result as previous result. -/
theorem c79_check (c : CNIConfig) (list : NetConfList) (rt : RuntimeConf) (hrt : rt.OK) (hn : PlainNames list.name rt)
    (hv : AtLeast list.cniVersion (0, 4, 0)) (hd : list.disableCheck = false) (fs fs' : FS) (tr : Trace) (o : Out Unit) (b : Bytes)
    (r r' : Result) (hb : fs (entryPath c list.name rt) = some b) (hf : ResultFile b r) (hr : r.getAsVersion list.cniVersion = .ok r')
    (h : Runs false (c.checkNetworkList list rt) fs tr fs' o) :
    fs' = fs ∧ Sweep c b!"CHECK" list.name list.cniVersion rt list.plugins (some r') tr ∧ (o = .ok () ↔ AllSucceeded list.plugins tr) := by
  obtain ⟨h1, -, -, h4⟩ := c15_check_list c list rt hrt fs fs' tr o h
  rcases h4 hv hd with ⟨tr1, prev, hg, hs, ha, -⟩ | ⟨-, -, tr1, o1, hg, hno⟩
  · have := (c79_result c list rt hn _ _ _ _ b r hb hf hg).2.2.1 r' hr
    cases this
    exact ⟨h1, hs, ha⟩
  · exact absurd ((c79_result c list rt hn _ _ _ _ b r hb hf hg).2.2.1 r' hr) (hno _)

/-- The same for a single configuration. -/
theorem c79_check_network (c : CNIConfig) (net : PluginConfig) (rt : RuntimeConf) (hrt : rt.OK) (hn : PlainNames net.network.name rt)
    (hv : AtLeast net.network.cniVersion (0, 4, 0)) (fs fs' : FS) (tr : Trace) (o : Out Unit) (b : Bytes)
    (r r' : Result) (hb : fs (entryPath c net.network.name rt) = some b) (hf : ResultFile b r)
    (hr : r.getAsVersion net.network.cniVersion = .ok r') (h : Runs false (c.checkNetwork net rt) fs tr fs' o) :
    fs' = fs ∧ Sweep c b!"CHECK" net.network.name net.network.cniVersion rt [net] (some r') tr ∧ (o = .ok () ↔ AllSucceeded [net] tr) := by
  obtain ⟨h1, -, h4⟩ := c15_check_network c net rt hrt fs fs' tr o h
  rcases h4 hv with ⟨tr1, prev, hg, hs, ha, -⟩ | ⟨-, -, tr1, o1, hg, hno⟩
  · have := (c79_result_network c net rt hn _ _ _ _ b r hb hf hg).2.2.1 r' hr
    cases this
    exact ⟨h1, hs, ha⟩
  · exact absurd ((c79_result_network c net rt hn _ _ _ _ b r hb hf hg).2.2.1 r' hr) (hno _)

/-- DEL of such an attachment runs the plugins with the stored result as previous result, and removes it once all of them succeeded. -/
theorem c79_del (c : CNIConfig) (list : NetConfList) (rt : RuntimeConf) (hrt : rt.OK) (hn : PlainNames list.name rt)
    (hv : AtLeast list.cniVersion (0, 4, 0)) (fs fs' : FS) (tr : Trace) (o : Out Unit) (b : Bytes) (r r' : Result)
    (hb : fs (entryPath c list.name rt) = some b) (hf : ResultFile b r) (hr : r.getAsVersion list.cniVersion = .ok r')
    (h : Runs false (c.delNetworkList list rt) fs tr fs' o) :
    Sweep c b!"DEL" list.name list.cniVersion rt list.plugins.reverse (some r') tr ∧ (o = .ok () ↔ AllSucceeded list.plugins tr) ∧
      (o ≠ .ok () → fs' = fs) ∧ (o = .ok () → fs' = fs.set (entryPath c list.name rt) none) :=
  del_try hrt hn hv (by rw [hb]; exact (resultFile_result hf).1 r' hr) h

/-- The same for a single configuration. -/
theorem c79_del_network (c : CNIConfig) (net : PluginConfig) (rt : RuntimeConf) (hrt : rt.OK) (hn : PlainNames net.network.name rt)
    (hv : AtLeast net.network.cniVersion (0, 4, 0)) (fs fs' : FS) (tr : Trace) (o : Out Unit) (b : Bytes) (r r' : Result)
    (hb : fs (entryPath c net.network.name rt) = some b) (hf : ResultFile b r) (hr : r.getAsVersion net.network.cniVersion = .ok r')
    (h : Runs false (c.delNetwork net rt) fs tr fs' o) :
    Sweep c b!"DEL" net.network.name net.network.cniVersion rt [net] (some r') tr ∧ (o = .ok () ↔ AllSucceeded [net] tr) ∧
      (o ≠ .ok () → fs' = fs) ∧ (o = .ok () → fs' = fs.set (entryPath c net.network.name rt) none) :=
  del_try_network hrt hn hv (by rw [hb]; exact (resultFile_result hf).1 r' hr) h

/-- There is no configuration to be had from such a file: asking for it is an error. -/
theorem c79_config (c : CNIConfig) (list : NetConfList) (rt : RuntimeConf) (hn : PlainNames list.name rt) (fs fs' : FS) (tr : Trace)
    (o : Out (Option (Bytes × RuntimeConf))) (b : Bytes) (r : Result) (hb : fs (entryPath c list.name rt) = some b) (hf : ResultFile b r)
    (h : Runs false (c.getNetworkListCachedConfig list rt) fs tr fs' o) : fs' = fs ∧ ∃ g, o = .err g := by
  obtain ⟨h1, -, h3, -⟩ := runs_getCachedConfig h
  have h3 := h3 rfl _ (cachePath_eq hn)
  rw [hb] at h3
  refine ⟨h1, ?_⟩
  rw [h3]
  unfold cachedConfigOf
  simp only
  split
  · exact ⟨_, rfl⟩
  · rename_i info hi
    rw [resultFile_kindless hf info hi]
    exact ⟨_, rfl⟩

/-- A listing of the attachments knows nothing of such files: every attachment in it comes from a file that is not one of them. -/
theorem c79_unlisted (c : CNIConfig) (fs fs' : FS) (tr : Trace) (l : List Attachment)
    (h : Runs false (c.getCachedAttachments []) fs tr fs' (.ok l)) :
    ∀ a ∈ l, ∃ n b, IsComp n ∧ fs (childPath (resultsDir c) n) = some b ∧ entryOf b = some a ∧ ∀ r, ¬ ResultFile b r := by
  obtain ⟨-, -, names, l', he, hl⟩ := c21_all c fs fs' tr _ h
  cases he
  intro a ha
  have : some a ∈ names.map (attachmentIn c fs) := by rw [hl.same]; exact List.mem_map_of_mem ha
  obtain ⟨n, hn, hna⟩ := List.mem_map.1 this
  have hna' := hna
  unfold attachmentIn at hna'
  obtain ⟨b, hb, hab⟩ := Option.bind_eq_some_iff.1 hna'
  refine ⟨n, b, ((hl.mem n).1 hn).1, hb, hab, fun r hr => ?_⟩
  rw [resultFile_entry hr] at hab; cases hab

/-- And so garbage collection leaves them all alone, however stale they are. -/
theorem c79_gc (c : CNIConfig) (list : NetConfList) (valid : Option (List GCAttachment)) (fs fs' : FS) (tr : Trace) (o : Out Unit)
    (hw : OwnNamed c fs) (h : Runs flt (c.gcNetworkList list valid) fs tr fs' o) (q b : Bytes) (r : Result) (hb : fs q = some b)
    (hf : ResultFile b r) : fs' q = some b := by
  rw [← hb]
  refine Classical.byContradiction fun hq => ?_
  obtain ⟨-, n, a, -, rfl, ha, -⟩ := c22_files c list valid fs fs' tr o h hw q hq
  unfold attachmentIn at ha
  rw [hb, Option.bind_some, resultFile_entry hf] at ha
  cases ha

/-! ### Examples: a result of version 0.4.0 stored by an earlier release, and a configuration of version 1.0.0. -/
namespace Example

/-- Test data; models no code. -/
def oldResult : R040 :=
  { cniVersion := b!"0.4.0"
    ips := [some { version := b!"4", address := ⟨[0,0,0,0,0,0,0,0,0,0,255,255,10,1,2,3], [255,255,255,0]⟩ }] }
/-- Test data; models no code. -/
def oldText : Bytes := b!"{\"cniVersion\":\"0.4.0\",\"ips\":[{\"version\":\"4\",\"address\":\"10.1.2.3/24\"}],\"dns\":{}}"
/-- Test data; models no code. -/
def oldFiles : FS := FS.set noFiles key (some oldText)
/-- The stored result in the format of the configuration. Test data; models no code. -/
def oldAs100 : Result := .v100 { cniVersion := b!"1.0.0", ips := [some { address := ⟨[0,0,0,0,0,0,0,0,0,0,255,255,10,1,2,3], [255,255,255,0]⟩ }] }

theorem oldText_file : ResultFile oldText (.v040 oldResult) := by
  refine ⟨by show oldResult.cniVersion ∈ mid040; decide, ⟨true, by decide +kernel, by simp⟩, ((Result.v040 oldResult).json).getD .null, by decide +kernel, by decide +kernel⟩

theorem oldFiles_has : oldFiles (entryPath cfg list.name Example.rt) = some oldText := by
  have hk : entryPath cfg list.name Example.rt = key := by decide +kernel
  rw [hk]; exact FS.set_same ..

theorem oldResult_as : (Result.v040 oldResult).getAsVersion list.cniVersion = .ok oldAs100 := by
  have : ((Result.v040 oldResult).getAsVersion list.cniVersion).toOption = some oldAs100 := by decide +kernel
  cases h : (Result.v040 oldResult).getAsVersion list.cniVersion with
  | ok x => rw [h] at this; cases this; rfl
  | err e => rw [h] at this; cases this
  | panic => rw [h] at this; cases this

/-- The stored address is given to both plugins; and the file goes. -/
example : ∃ tr fs' o, Runs false (cfg.delNetworkList list Example.rt) oldFiles tr fs' o ∧ o = .ok () ∧ fs' key = none ∧
    tr.execs.map (fun e => e.path) = [b!"/bin/b", b!"/bin/a"] ∧
    ∀ e ∈ tr.execs, (indexOf b!"\"address\":\"10.1.2.3/24\"" e.stdin).isSome = true := by
  obtain ⟨tr, fs', o, h, e⟩ := Prog.interp_exists (flt := false) (p := cfg.delNetworkList list Example.rt) (fs := oldFiles)
    (find := find) (exec := good) (b := (some (), none, [(b!"/bin/b", true), (b!"/bin/a", true)]))
    (fun tr fs' o => (o.toOption, fs' key, tr.execs.map (fun e => (e.path, (indexOf b!"\"address\":\"10.1.2.3/24\"" e.stdin).isSome))))
    (by decide +kernel)
  simp only [Prod.mk.injEq] at e
  have he := e.2.2
  refine ⟨tr, fs', o, h, by cases o <;> simp_all [Out.toOption], e.2.1, ?_, ?_⟩
  · have := congrArg (List.map Prod.fst) he
    simpa [List.map_map, Function.comp_def] using this
  · intro x hx
    have : (x.path, (indexOf b!"\"address\":\"10.1.2.3/24\"" x.stdin).isSome) ∈ [(b!"/bin/b", true), (b!"/bin/a", true)] := by
      rw [← he]; exact List.mem_map_of_mem hx
    simp only [List.mem_cons, Prod.mk.injEq, List.not_mem_nil, or_false] at this
    rcases this with h | h <;> exact h.2

end Example

end Verif
