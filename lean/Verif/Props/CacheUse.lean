/- C16, C17: what later operations see of an ADD. -/
import Verif.Props.Del
import Verif.Libcni.CacheRead

namespace Verif
open Spec
set_option linter.unusedSimpArgs false

variable {flt : Bool} {fs0 fs1 fs2 fs3 : FS} {tr tr0 : Trace}

theorem resultOfOutput_wellTyped {conf out : Bytes} {r : Result} (h : resultOfOutput conf out = .ok r) : WellTyped r := by
  unfold resultOfOutput at h
  cases hf : fixupResultVersion conf out with
  | err e => rw [hf] at h; cases h
  | panic => rw [hf] at h; cases h
  | ok p => rw [hf] at h; exact (create_wellTyped h).1

theorem Spec.SameAttachment.plain {c c2 : CNIConfig} {name name2 : Bytes} {rt rt2 : RuntimeConf} (h : SameAttachment c name rt c2 name2 rt2)
    (hp : PlainNames name rt) : PlainNames name2 rt2 ∧ entryPath c2 name2 rt2 = entryPath c name rt := by
  obtain ⟨rfl, h2, h3, h4⟩ := h
  refine ⟨⟨hp.name, by rw [h2]; exact hp.cid, by rw [h3]; exact hp.ifn⟩, ?_⟩
  unfold entryPath
  rw [h2, h3, h4]

/-- What a successful ADD leaves in the file of its attachment. -/
theorem addNetworkList_stored {c : CNIConfig} {list : NetConfList} {rt : RuntimeConf} (hrt : rt.OK) {r : Result}
    (h : Runs flt (c.addNetworkList list rt) fs0 tr0 fs1 (.ok (some r))) :
    WellTyped r ∧ PlainNames list.name rt ∧ ∃ info, cachedInfoOf (some r) list.bytes list.name rt = some info ∧
      fs1 = fs0.set (entryPath c list.name rt) (some info.json.print) := by
  obtain ⟨rs, hch, hok, -, hval, hc⟩ := addNetworkList_runs hrt h
  obtain ⟨hl, hr⟩ := hok _ rfl
  have hr' : rs.getLast? = some r := hr.symm
  have hmem : r ∈ rs := List.mem_of_getLast? hr'
  obtain ⟨i, hi⟩ := List.mem_iff_getElem?.1 hmem
  obtain ⟨e, he, out, -, hret⟩ := hch.results i r hi
  have hne : tr0.execs ≠ [] := by intro hn; rw [hn] at he; simp at he
  have hpl := plainNames_of_valid (hval hne)
  refine ⟨resultOfOutput_wellTyped hret, hpl, ?_⟩
  rcases hc with ⟨_, hx⟩ | ⟨_, info, p, hinfo, hp, ⟨_, hfs⟩ | ⟨_, ⟨g, hg⟩, _⟩⟩
  · exact absurd rfl (hx _)
  · rw [cachePath_eq hpl] at hp
    cases hp
    rw [hr'] at hinfo
    exact ⟨info, hinfo, hfs⟩
  · cases hg

theorem addNetwork_stored {c : CNIConfig} {net : PluginConfig} {rt : RuntimeConf} (hrt : rt.OK) {r : Result}
    (h : Runs flt (c.addNetwork net rt) fs0 tr0 fs1 (.ok r)) :
    WellTyped r ∧ PlainNames net.network.name rt ∧ ∃ info, cachedInfoOf (some r) net.bytes net.network.name rt = some info ∧
      fs1 = fs0.set (entryPath c net.network.name rt) (some info.json.print) := by
  obtain ⟨rs, hch, hok, -, hval, hc⟩ := addNetwork_runs hrt h
  have hrs := hok r rfl
  obtain ⟨e, he, out, -, hret⟩ := hch.results 0 r (by rw [hrs]; rfl)
  have hne : tr0.execs ≠ [] := by intro hn; rw [hn] at he; simp at he
  have hpl := plainNames_of_valid (hval hne)
  refine ⟨resultOfOutput_wellTyped hret, hpl, ?_⟩
  rcases hc with ⟨_, hx⟩ | ⟨r', hr', info, p, hinfo, hp, ⟨_, hfs⟩ | ⟨_, ⟨g, hg⟩, _⟩⟩
  · exact absurd rfl (hx _)
  · rw [cachePath_eq hpl] at hp
    cases hp
    rw [hrs] at hr'
    cases hr'
    exact ⟨info, hinfo, hfs⟩
  · cases hg

/-- Reading the result of a stored entry. -/
theorem stored_result {c c2 : CNIConfig} {name name2 config ver : Bytes} {rt rt2 : RuntimeConf} {r : Result} {info : CachedInfo}
    (hrt : rt.OK) (hw : WellTyped r) (hpl : PlainNames name rt) (hi : cachedInfoOf (some r) config name rt = some info)
    (hrep : Representable true r) (hcap : ∀ kv ∈ rt.capArgs, InRange kv.2)
    (hsame : SameAttachment c name rt c2 name2 rt2) (hk : fs2 (entryPath c name rt) = some info.json.print) {o : Out (Option Result)}
    (h : Runs false (c2.getCachedResult name2 ver rt2) fs2 tr fs3 o) :
    (∀ r', r.getAsVersion ver = .ok r' → o = .ok (some r')) ∧ (∀ g, r.getAsVersion ver = .err g → ∃ g', o = .err g') ∧
      (r.getAsVersion ver = .panic → o = .panic) := by
  obtain ⟨hp2, he⟩ := hsame.plain hpl
  obtain ⟨-, -, h3, -⟩ := runs_getCachedResult h
  have := h3 rfl _ (cachePath_eq hp2)
  rw [he, hk, cachedResultOf_entry hrt hw hrep hi hcap] at this
  refine ⟨?_, ?_, ?_⟩
  · intro r' hr; rw [hr] at this; exact this
  · intro g hr; rw [hr] at this; exact ⟨_, this⟩
  · intro hr; rw [hr] at this; exact this

section
variable (c c2 : CNIConfig) (list list2 : NetConfList) (net net2 : PluginConfig) (rt rt2 : RuntimeConf) (r : Result)

/-- After a successful ADD, and as long as nothing changes the entry, the cached result is the result ADD returned, converted to
the version of the configuration. (Results whose addresses are missing, or with integers that are not float64-exact, excepted; as
are capability arguments with numbers beyond float64.) -/
theorem c16_cached_result (hrt : rt.OK) (hadd : Runs flt (c.addNetworkList list rt) fs0 tr0 fs1 (.ok (some r)))
    (hrep : Representable true r) (hcap : ∀ kv ∈ rt.capArgs, InRange kv.2)
    (hsame : SameAttachment c list.name rt c2 list2.name rt2)
    (hkeep : fs2 (entryPath c list.name rt) = fs1 (entryPath c list.name rt)) (o : Out (Option Result))
    (h : Runs false (c2.getNetworkListCachedResult list2 rt2) fs2 tr fs3 o) :
    (∀ r', r.getAsVersion list2.cniVersion = .ok r' → o = .ok (some r')) ∧
      (∀ g, r.getAsVersion list2.cniVersion = .err g → ∃ g', o = .err g') := by
  obtain ⟨hw, hpl, info, hi, rfl⟩ := addNetworkList_stored hrt hadd
  have := stored_result hrt hw hpl hi hrep hcap hsame (by rw [hkeep, FS.set_same]) h
  exact ⟨this.1, this.2.1⟩

/-- The same for a single network. -/
theorem c16_cached_result_network (hrt : rt.OK) (hadd : Runs flt (c.addNetwork net rt) fs0 tr0 fs1 (.ok r))
    (hrep : Representable true r) (hcap : ∀ kv ∈ rt.capArgs, InRange kv.2)
    (hsame : SameAttachment c net.network.name rt c2 net2.network.name rt2)
    (hkeep : fs2 (entryPath c net.network.name rt) = fs1 (entryPath c net.network.name rt)) (o : Out (Option Result))
    (h : Runs false (c2.getNetworkCachedResult net2 rt2) fs2 tr fs3 o) :
    (∀ r', r.getAsVersion net2.network.cniVersion = .ok r' → o = .ok (some r')) ∧
      (∀ g, r.getAsVersion net2.network.cniVersion = .err g → ∃ g', o = .err g') := by
  obtain ⟨hw, hpl, info, hi, rfl⟩ := addNetwork_stored hrt hadd
  have := stored_result hrt hw hpl hi hrep hcap hsame (by rw [hkeep, FS.set_same]) h
  exact ⟨this.1, this.2.1⟩

/-- Every plugin of a later CHECK is given that result. -/
theorem c16_check (hrt : rt.OK) (hadd : Runs flt (c.addNetworkList list rt) fs0 tr0 fs1 (.ok (some r)))
    (hrep : Representable true r) (hcap : ∀ kv ∈ rt.capArgs, InRange kv.2)
    (hsame : SameAttachment c list.name rt c2 list2.name rt2)
    (hkeep : fs2 (entryPath c list.name rt) = fs1 (entryPath c list.name rt)) (hrt2 : rt2.OK) (o : Out Unit)
    (h : Runs false (c2.checkNetworkList list2 rt2) fs2 tr fs3 o) (hv : AtLeast list2.cniVersion (0, 4, 0))
    (hd : list2.disableCheck = false) (r' : Result) (hr' : r.getAsVersion list2.cniVersion = .ok r') :
    Sweep c2 b!"CHECK" list2.name list2.cniVersion rt2 list2.plugins (some r') tr ∧ (o = .ok () ↔ AllSucceeded list2.plugins tr) := by
  obtain ⟨-, -, -, hc⟩ := c15_check_list c2 list2 rt2 hrt2 fs2 fs3 tr o h
  rcases hc hv hd with ⟨tr1, prev, hg, hsw, hall, _⟩ | ⟨_, _, tr1, o1, hg, hno⟩
  · have := (c16_cached_result c c2 list list2 rt rt2 r hrt hadd hrep hcap hsame hkeep _ hg).1 r' hr'
    cases this
    exact ⟨hsw, hall⟩
  · exact absurd ((c16_cached_result c c2 list list2 rt rt2 r hrt hadd hrep hcap hsame hkeep _ hg).1 r' hr') (hno _)

/-- The plugin of a later CHECK of a single network is given that result. -/
theorem c16_check_network (hrt : rt.OK) (hadd : Runs flt (c.addNetwork net rt) fs0 tr0 fs1 (.ok r))
    (hrep : Representable true r) (hcap : ∀ kv ∈ rt.capArgs, InRange kv.2)
    (hsame : SameAttachment c net.network.name rt c2 net2.network.name rt2)
    (hkeep : fs2 (entryPath c net.network.name rt) = fs1 (entryPath c net.network.name rt)) (hrt2 : rt2.OK) (o : Out Unit)
    (h : Runs false (c2.checkNetwork net2 rt2) fs2 tr fs3 o) (hv : AtLeast net2.network.cniVersion (0, 4, 0))
    (r' : Result) (hr' : r.getAsVersion net2.network.cniVersion = .ok r') :
    Sweep c2 b!"CHECK" net2.network.name net2.network.cniVersion rt2 [net2] (some r') tr ∧ (o = .ok () ↔ AllSucceeded [net2] tr) := by
  obtain ⟨-, -, hc⟩ := c15_check_network c2 net2 rt2 hrt2 fs2 fs3 tr o h
  rcases hc hv with ⟨tr1, prev, hg, hsw, hall, _⟩ | ⟨_, _, tr1, o1, hg, hno⟩
  · have := (c16_cached_result_network c c2 net net2 rt rt2 r hrt hadd hrep hcap hsame hkeep _ hg).1 r' hr'
    cases this
    exact ⟨hsw, hall⟩
  · exact absurd ((c16_cached_result_network c c2 net net2 rt rt2 r hrt hadd hrep hcap hsame hkeep _ hg).1 r' hr') (hno _)

/-- Every plugin of a later DEL is given that result. -/
theorem c16_del (hrt : rt.OK) (hadd : Runs flt (c.addNetworkList list rt) fs0 tr0 fs1 (.ok (some r)))
    (hrep : Representable true r) (hcap : ∀ kv ∈ rt.capArgs, InRange kv.2)
    (hsame : SameAttachment c list.name rt c2 list2.name rt2)
    (hkeep : fs2 (entryPath c list.name rt) = fs1 (entryPath c list.name rt)) (hrt2 : rt2.OK) (o : Out Unit)
    (h : Runs false (c2.delNetworkList list2 rt2) fs2 tr fs3 o) (hv : AtLeast list2.cniVersion (0, 4, 0))
    (r' : Result) (hr' : r.getAsVersion list2.cniVersion = .ok r') :
    Sweep c2 b!"DEL" list2.name list2.cniVersion rt2 list2.plugins.reverse (some r') tr ∧ (o = .ok () ↔ AllSucceeded list2.plugins tr) := by
  rcases delNetworkList_runs hrt2 h with ⟨hn, _⟩ | ⟨hg, _⟩ | ⟨prev, fs1', hsw, hall, _, _, hprev⟩
  · obtain ⟨p, hp, _⟩ := hv
    exact absurd ⟨p, hp⟩ hn
  · have := (c16_cached_result c c2 list list2 rt rt2 r hrt hadd hrep hcap hsame hkeep _ hg).1 r' hr'
    cases this
  · rcases hprev with ⟨hn, _⟩ | ⟨_, tr1, o1, hg, ⟨ho1, _⟩ | ⟨⟨g, ho1⟩, _⟩⟩
    · exact absurd hv hn
    · have := (c16_cached_result c c2 list list2 rt rt2 r hrt hadd hrep hcap hsame hkeep _ hg).1 r' hr'
      rw [ho1] at this
      cases this
      exact ⟨hsw, hall⟩
    · have := (c16_cached_result c c2 list list2 rt rt2 r hrt hadd hrep hcap hsame hkeep _ hg).1 r' hr'
      rw [ho1] at this
      cases this

/-- The plugin of a later DEL of a single network is given that result. -/
theorem c16_del_network (hrt : rt.OK) (hadd : Runs flt (c.addNetwork net rt) fs0 tr0 fs1 (.ok r))
    (hrep : Representable true r) (hcap : ∀ kv ∈ rt.capArgs, InRange kv.2)
    (hsame : SameAttachment c net.network.name rt c2 net2.network.name rt2)
    (hkeep : fs2 (entryPath c net.network.name rt) = fs1 (entryPath c net.network.name rt)) (hrt2 : rt2.OK) (o : Out Unit)
    (h : Runs false (c2.delNetwork net2 rt2) fs2 tr fs3 o) (hv : AtLeast net2.network.cniVersion (0, 4, 0))
    (r' : Result) (hr' : r.getAsVersion net2.network.cniVersion = .ok r') :
    Sweep c2 b!"DEL" net2.network.name net2.network.cniVersion rt2 [net2] (some r') tr ∧ (o = .ok () ↔ AllSucceeded [net2] tr) := by
  rcases delNetwork_runs hrt2 h with ⟨_, _, _, hn | ⟨_, tr1, o1, hg, hno⟩⟩ | ⟨prev, hsw, hall, _, _, ⟨hn, _⟩ | ⟨_, tr1, hg⟩⟩
  · obtain ⟨p, hp, _⟩ := hv
    exact absurd ⟨p, hp⟩ hn
  · exact absurd ((c16_cached_result_network c c2 net net2 rt rt2 r hrt hadd hrep hcap hsame hkeep _ hg).1 r' hr') (hno _)
  · exact absurd hv hn
  · have := (c16_cached_result_network c c2 net net2 rt rt2 r hrt hadd hrep hcap hsame hkeep _ hg).1 r' hr'
    cases this
    exact ⟨hsw, hall⟩

/-- Below version 0.4.0 DEL injects no previous result. -/
theorem c16_del_old (hrt : rt.OK) (o : Out Unit) (h : Runs flt (c.delNetworkList list rt) fs2 tr fs3 o)
    (hv : ¬ AtLeast list.cniVersion (0, 4, 0)) :
    Sweep c b!"DEL" list.name list.cniVersion rt list.plugins.reverse none tr := by
  rcases delNetworkList_runs hrt h with ⟨_, rfl, _⟩ | ⟨_, _, _, _, ha⟩ | ⟨prev, fs1', hsw, _, _, _, ⟨_, _, rfl, _⟩ | ⟨ha, _⟩⟩
  · exact ⟨by simp, by simp⟩
  · exact absurd ha hv
  · exact hsw
  · exact absurd ha hv

/-! ### C17 -/

/-- After a successful ADD, and as long as nothing changes the entry, the cached configuration is exactly the bytes of the
configuration ADD was given (whatever they are). The arguments are those given to ADD with invalid UTF-8 replaced; if ADD was
given none, those of the caller are kept. The capability arguments are those given to ADD, as JSON reads them back. -/
theorem c17_cached_config (hrt : rt.OK) (hadd : Runs flt (c.addNetworkList list rt) fs0 tr0 fs1 (.ok (some r)))
    (hcap : ∀ kv ∈ rt.capArgs, InRange kv.2) (hsame : SameAttachment c list.name rt c2 list2.name rt2)
    (hkeep : fs2 (entryPath c list.name rt) = fs1 (entryPath c list.name rt)) (o : Out (Option (Bytes × RuntimeConf)))
    (h : Runs false (c2.getNetworkListCachedConfig list2 rt2) fs2 tr fs3 o) :
    ∃ caps, (Json.obj rt.capArgs).clean.toAny = some (.obj caps) ∧
      o = .ok (some (list.bytes, { rt2 with
        args := if rt.args = [] then rt2.args else rt.args.map fun kv => (sanitize kv.1, sanitize kv.2)
        capArgs := caps })) := by
  obtain ⟨hw, hpl, info, hi, rfl⟩ := addNetworkList_stored hrt hadd
  obtain ⟨hp2, he⟩ := hsame.plain hpl
  obtain ⟨-, -, h3, -⟩ := runs_getCachedConfig h
  have := h3 rfl _ (cachePath_eq hp2)
  obtain ⟨caps, hc, hread⟩ := readCachedInfo_entry hrt hi hcap
  rw [he, hkeep, FS.set_same] at this
  unfold cachedConfigOf at this
  simp only [hread] at this
  rw [if_neg (by simp)] at this
  refine ⟨GoMap.ofList caps, by simp [Json.clean, Json.toAny, hc], ?_⟩
  rw [this]
  by_cases ha : rt.args = []
  · simp [ha]
  · simp only [ha, if_false, Option.getD_some]
    rfl

/-- The same for a single network. -/
theorem c17_cached_config_network (hrt : rt.OK) (hadd : Runs flt (c.addNetwork net rt) fs0 tr0 fs1 (.ok r))
    (hcap : ∀ kv ∈ rt.capArgs, InRange kv.2) (hsame : SameAttachment c net.network.name rt c2 net2.network.name rt2)
    (hkeep : fs2 (entryPath c net.network.name rt) = fs1 (entryPath c net.network.name rt)) (o : Out (Option (Bytes × RuntimeConf)))
    (h : Runs false (c2.getNetworkCachedConfig net2 rt2) fs2 tr fs3 o) :
    ∃ caps, (Json.obj rt.capArgs).clean.toAny = some (.obj caps) ∧
      o = .ok (some (net.bytes, { rt2 with
        args := if rt.args = [] then rt2.args else rt.args.map fun kv => (sanitize kv.1, sanitize kv.2)
        capArgs := caps })) := by
  obtain ⟨hw, hpl, info, hi, rfl⟩ := addNetwork_stored hrt hadd
  obtain ⟨hp2, he⟩ := hsame.plain hpl
  obtain ⟨-, -, h3, -⟩ := runs_getCachedConfig h
  have := h3 rfl _ (cachePath_eq hp2)
  obtain ⟨caps, hc, hread⟩ := readCachedInfo_entry hrt hi hcap
  rw [he, hkeep, FS.set_same] at this
  unfold cachedConfigOf at this
  simp only [hread] at this
  rw [if_neg (by simp)] at this
  refine ⟨GoMap.ofList caps, by simp [Json.clean, Json.toAny, hc], ?_⟩
  rw [this]
  by_cases ha : rt.args = []
  · simp [ha]
  · simp only [ha, if_false, Option.getD_some]
    rfl

/-- For arguments in UTF-8 and capability arguments that are plain JSON values (maps, lists, strings, float64 numbers, …) what is
read back is exactly what was given. -/
theorem c17_exact (hrt : rt.OK) (hadd : Runs flt (c.addNetworkList list rt) fs0 tr0 fs1 (.ok (some r)))
    (hargs : ∀ kv ∈ rt.args, isUtf8 kv.1 = true ∧ isUtf8 kv.2 = true) (hne : rt.args ≠ [])
    (hcap : (Json.obj rt.capArgs).Normal) (hsame : SameAttachment c list.name rt c2 list2.name rt2)
    (hkeep : fs2 (entryPath c list.name rt) = fs1 (entryPath c list.name rt)) (o : Out (Option (Bytes × RuntimeConf)))
    (h : Runs false (c2.getNetworkListCachedConfig list2 rt2) fs2 tr fs3 o) :
    o = .ok (some (list.bytes, { rt2 with args := rt.args, capArgs := rt.capArgs })) := by
  have hc : ∀ kv ∈ rt.capArgs, InRange kv.2 := by
    obtain ⟨l, hl, _⟩ := normal_obj hcap
    exact (toAnyMembers_inRange rt.capArgs (numsOKMembers_iff.2 hrt.nums)).1 ⟨l, hl⟩
  obtain ⟨caps, h1, h2⟩ := c17_cached_config c c2 list list2 rt rt2 r hrt hadd hc hsame hkeep o h
  rw [Json.clean_of_WF _ hcap.2, hcap.1] at h1
  cases h1
  rw [h2, if_neg hne]
  have : rt.args.map (fun kv => (sanitize kv.1, sanitize kv.2)) = rt.args := by
    conv => rhs; rw [← List.map_id rt.args]
    apply List.map_congr_left
    intro kv hkv
    obtain ⟨h1, h2⟩ := hargs kv hkv
    simp [sanitize_of_isUtf8 h1, sanitize_of_isUtf8 h2]
  rw [this]

end

/-! ### concrete cases -/

namespace Example

/-- ADD followed by a read of the cached result and configuration, and by a CHECK. -/
example : ∃ tr fs' o, Runs false ((cfg.addNetworkList list rt).bind fun _ => cfg.getNetworkListCachedResult list rt) noFiles tr fs' o ∧
    o.toOption.map (Option.map Result.json) = some (some (Json.parse b!"{\"cniVersion\":\"1.0.0\",\"dns\":{\"domain\":\"d\"}}")) :=
  Prog.interp_exists (find := find) (exec := good) (fun _ _ o => o.toOption.map (Option.map Result.json)) (by decide +kernel)
example : ∃ tr fs' o, Runs false ((cfg.addNetworkList list rt).bind fun _ => cfg.getNetworkListCachedConfig list { rt with args := [] })
    noFiles tr fs' o ∧ o.toOption = some (some (b!"{}", rt)) :=
  Prog.interp_exists (find := find) (exec := good) (fun _ _ o => o.toOption) (by decide +kernel)
/-- The result above meets the hypothesis of C16. -/
example : Representable true (.v100 { cniVersion := b!"1.0.0", dns := { domain := b!"d" } }) := by decide +kernel
example : (Json.obj rt.capArgs).Normal := ⟨rfl, by trivial⟩

end Example
end Verif
