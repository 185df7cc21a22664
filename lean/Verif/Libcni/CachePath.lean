/- Where the cache entries are. -/
import Verif.Libcni.Cache
import Verif.Libcni.ProgLemmas
import Verif.Spec.Api

namespace Verif
open Spec

variable {flt : Bool} {fs fs' : FS} {tr : Trace}

theorem validName_no_slash {s : Bytes} (h : ValidName s) : s ≠ [] ∧ 47 ∉ s := by
  obtain ⟨c, r, rfl, hc, hr⟩ := h
  refine ⟨by simp, ?_⟩
  intro hm
  rw [List.mem_cons] at hm
  have ha : ¬ Alnum 47 := by unfold Alnum; decide
  rcases hm with rfl | hm
  · exact ha hc
  · rcases hr 47 hm with h | h | h | h
    · exact ha h
    · cases h
    · cases h
    · cases h

theorem validIfName_no_slash {s : Bytes} (h : ValidIfName s) : s ≠ [] ∧ 47 ∉ s := by
  obtain ⟨h1, _, _, _, h5⟩ := h
  refine ⟨by rintro rfl; simp at h1, ?_⟩
  intro hm
  obtain ⟨a, b, rfl⟩ := List.append_of_mem hm
  exact h5 [47] (by simp [forbiddenInIfName]) ⟨a, b, by simp⟩

theorem plainNames_of_valid {name : Bytes} {rt : RuntimeConf} (h : ValidName rt.containerID ∧ ValidName name ∧ ValidIfName rt.ifName) :
    PlainNames name rt := ⟨validName_no_slash h.2.1, validName_no_slash h.1, validIfName_no_slash h.2.2⟩

theorem cacheFileName_comp {n c i : Bytes} (hn : 47 ∉ n) (hc : 47 ∉ c) (hi : 47 ∉ i) : IsComp (cacheFileName n c i) := by
  have hm : (45 : UInt8) ∈ cacheFileName n c i := by simp [cacheFileName]
  refine ⟨?_, ?_, ?_, ?_⟩
  · intro h; rw [h] at hm; simp at hm
  · intro h; rw [h] at hm; revert hm; decide
  · intro h; rw [h] at hm; revert hm; decide
  · simp [cacheFileName, hn, hc, hi]

theorem getCacheDir_eq (c : CNIConfig) (rt : RuntimeConf) : c.getCacheDir rt = cacheRoot c rt := rfl

theorem cacheRoot_ne_nil (c : CNIConfig) (rt : RuntimeConf) : cacheRoot c rt ≠ [] := by
  unfold cacheRoot
  split
  · assumption
  · split
    · assumption
    · decide

/-- The cache file of names without slashes. -/
theorem cachePath_eq {c : CNIConfig} {name : Bytes} {rt : RuntimeConf} (h : PlainNames name rt) :
    c.cachePath name rt = .ok (entryPath c name rt) := by
  unfold CNIConfig.cachePath
  rw [if_neg (by simp [h.name.1, h.cid.1, h.ifn.1])]
  congr 1
  have hne : cacheRoot c rt ++ b!"/results" ≠ [] := by simp
  have hc := cacheFileName_comp h.name.2 h.cid.2 h.ifn.2
  have := joinPath_child (dir := cacheRoot c rt ++ b!"/results") hne hc
  unfold entryPath
  rw [show name ++ b!"-" ++ rt.containerID ++ b!"-" ++ rt.ifName = cacheFileName name rt.containerID rt.ifName from rfl, ← this]
  unfold joinPath
  rw [if_neg hne, if_neg hc.1, getCacheDir_eq]
  simp

theorem entryPath_inResults {c : CNIConfig} {name : Bytes} {rt : RuntimeConf} (h : PlainNames name rt) :
    InResults c rt (entryPath c name rt) := ⟨_, cacheFileName_comp h.name.2 h.cid.2 h.ifn.2, rfl⟩

theorem cachePath_nonempty {c : CNIConfig} {name p : Bytes} {rt : RuntimeConf} (h : c.cachePath name rt = .ok p) :
    name ≠ [] ∧ rt.containerID ≠ [] ∧ rt.ifName ≠ [] := by
  unfold CNIConfig.cachePath at h
  split at h
  · cases h
  · rename_i hn
    simp only [not_or] at hn
    exact hn

theorem cachePath_ne_panic (c : CNIConfig) (name : Bytes) (rt : RuntimeConf) : c.cachePath name rt ≠ .panic := by
  unfold CNIConfig.cachePath; split <;> simp

/-! ### the cache operations -/

/-- Storing an entry. -/
theorem runs_cacheAdd {c : CNIConfig} {result : Option Result} {config name : Bytes} {rt : RuntimeConf} {o : Out Unit}
    (h : Runs flt (c.cacheAdd result config name rt) fs tr fs' o) :
    tr.execs = [] ∧ ((fs' = fs ∧ ∃ g, o = .err g) ∨
      ∃ info p, cachedInfoOf result config name rt = some info ∧ c.cachePath name rt = .ok p ∧
        ((o = .ok () ∧ fs' = fs.set p (some info.json.print)) ∨
          (flt = true ∧ (∃ g, o = .err g) ∧ ∃ n, fs' = fs.set p (some (info.json.print.take n))))) := by
  unfold CNIConfig.cacheAdd at h
  cases hi : cachedInfoOf result config name rt with
  | none =>
    rw [hi] at h
    obtain ⟨rfl, rfl, rfl⟩ := runs_done.1 h
    exact ⟨rfl, .inl ⟨rfl, _, rfl⟩⟩
  | some info =>
    rw [hi] at h
    cases hp : c.cachePath name rt with
    | panic => exact absurd hp (cachePath_ne_panic _ _ _)
    | err e =>
      rw [hp] at h
      obtain ⟨rfl, rfl, rfl⟩ := runs_done.1 h
      exact ⟨rfl, .inl ⟨rfl, _, rfl⟩⟩
    | ok p =>
      rw [hp] at h
      obtain ⟨r, fs1, tr', hs, rfl, hr⟩ := runs_op.1 h
      cases hs with
      | mkdirAllFails _ hf =>
        obtain ⟨rfl, rfl, rfl⟩ := runs_done.1 hr
        exact ⟨rfl, .inl ⟨rfl, _, rfl⟩⟩
      | mkdirAll =>
        obtain ⟨r, fs2, tr', hs, rfl, hr⟩ := runs_op.1 hr
        cases hs with
        | writeFile =>
          obtain ⟨rfl, rfl, rfl⟩ := runs_done.1 hr
          exact ⟨rfl, .inr ⟨info, p, rfl, rfl, .inl ⟨rfl, rfl⟩⟩⟩
        | writeFileFails _ _ hf =>
          obtain ⟨rfl, rfl, rfl⟩ := runs_done.1 hr
          exact ⟨rfl, .inl ⟨rfl, _, rfl⟩⟩
        | writeFileTorn _ _ n hf =>
          obtain ⟨rfl, rfl, rfl⟩ := runs_done.1 hr
          exact ⟨rfl, .inr ⟨info, p, rfl, rfl, .inr ⟨hf, ⟨_, rfl⟩, n, rfl⟩⟩⟩

/-- Removing an entry. -/
theorem runs_cacheDel {c : CNIConfig} {name : Bytes} {rt : RuntimeConf} {o : Out Unit}
    (h : Runs flt (c.cacheDel name rt) fs tr fs' o) :
    tr.execs = [] ∧ o ≠ .panic ∧ ((fs' = fs ∧ (flt = false → ∀ p, c.cachePath name rt = .ok p → fs p = none)) ∨
      ∃ p, c.cachePath name rt = .ok p ∧ fs' = fs.set p none) := by
  unfold CNIConfig.cacheDel at h
  split at h
  · rename_i p hp
    obtain ⟨r, fs1, tr', hs, rfl, hr⟩ := runs_op.1 h
    cases hs with
    | remove hn =>
      obtain ⟨rfl, rfl, rfl⟩ := runs_done.1 hr
      exact ⟨rfl, by simp, .inr ⟨p, hp, rfl⟩⟩
    | removeMissing _ hn =>
      obtain ⟨rfl, rfl, rfl⟩ := runs_done.1 hr
      exact ⟨rfl, by simp, .inl ⟨rfl, fun _ q hq => by rw [hp] at hq; cases hq; exact hn⟩⟩
    | removeFails _ hf =>
      obtain ⟨rfl, rfl, rfl⟩ := runs_done.1 hr
      exact ⟨rfl, by simp, .inl ⟨rfl, fun hff => by rw [hff] at hf; cases hf⟩⟩
  · rename_i hp
    obtain ⟨rfl, rfl, rfl⟩ := runs_done.1 h
    exact ⟨rfl, by simp, .inl ⟨rfl, fun _ p hq => absurd hq (hp p)⟩⟩

/-- Reading a cached result. -/
theorem getCachedResult_looks {c : CNIConfig} {name ver : Bytes} {rt : RuntimeConf} :
    (c.getCachedResult name ver rt).All fun a => ∃ p, a = .readFile p ∧ c.cachePath name rt = .ok p := by
  unfold CNIConfig.getCachedResult
  split
  · rename_i p hp
    refine ⟨⟨p, rfl, hp⟩, fun r => ?_⟩
    cases r with
    | none => trivial
    | some b =>
      simp only
      split
      · exact ⟨⟨p, rfl, hp⟩, fun r => trivial⟩
      · trivial
  · trivial
  · trivial

theorem getCachedConfig_looks {c : CNIConfig} {name : Bytes} {rt : RuntimeConf} :
    (c.getCachedConfig name rt).All fun a => ∃ p, a = .readFile p ∧ c.cachePath name rt = .ok p := by
  unfold CNIConfig.getCachedConfig
  split
  · rename_i p hp
    exact ⟨⟨p, rfl, hp⟩, fun r => trivial⟩
  · trivial
  · trivial

/-- What a cached result is, as a function of the file's contents (`none`: no file). Closed form of
libcni/api.go:366-402 `CNIConfig.getCachedResult` for proofs. -/
def cachedResultOf (ver : Bytes) : Option Bytes → Out (Option Result)
  | none => .ok none
  | some b =>
    match currentFormat b with
    | none => loadResult b ver
    | some info => loadResult (mapJson info.rawResult).print ver

theorem runs_getCachedResult {c : CNIConfig} {name ver : Bytes} {rt : RuntimeConf} {o : Out (Option Result)}
    (h : Runs flt (c.getCachedResult name ver rt) fs tr fs' o) :
    fs' = fs ∧ tr.execs = [] ∧ (flt = false → ∀ p, c.cachePath name rt = .ok p → o = cachedResultOf ver (fs p)) ∧
      (∀ p, c.cachePath name rt = .ok p → o = cachedResultOf ver (fs p) ∨ o = .ok none) ∧
      ((∀ p, c.cachePath name rt ≠ .ok p) → ∃ g, o = .err g) := by
  have hl := getCachedResult_looks (c := c) (name := name) (ver := ver) (rt := rt)
  have h1 : fs' = fs := (hl.mono fun a ⟨p, hp, _⟩ => by rw [hp]; rfl).readonly h
  have h2 : tr.execs = [] := (hl.mono fun a ⟨p, hp, _⟩ => by rw [hp]; rfl).noExec h
  refine ⟨h1, h2, ?_⟩
  unfold CNIConfig.getCachedResult at h
  split at h
  · rename_i p hp
    refine ⟨?_, ?_, fun hn => absurd hp (hn p)⟩
    · rintro rfl q hq
      rw [hp] at hq; cases hq
      obtain ⟨r, fs1, tr', hs, rfl, hr⟩ := runs_op.1 h
      cases hs with
      | readFileFails _ hf => cases hf
      | readFile =>
        cases hb : fs p with
        | none =>
          rw [hb] at hr
          obtain ⟨-, -, rfl⟩ := runs_done.1 hr
          rfl
        | some b =>
          rw [hb] at hr
          simp only at hr
          unfold cachedResultOf
          simp only
          split at hr
          · rename_i hc
            obtain ⟨r, fs1, tr', hs, rfl, hr⟩ := runs_op.1 hr
            cases hs with
            | readFileFails _ hf => cases hf
            | readFile =>
              obtain ⟨-, -, rfl⟩ := runs_done.1 hr
              rw [hc, hb]; rfl
          · rename_i info hc
            obtain ⟨-, -, rfl⟩ := runs_done.1 hr
            rw [hc]
    · intro q hq
      rw [hp] at hq; cases hq
      obtain ⟨r, fs1, tr', hs, rfl, hr⟩ := runs_op.1 h
      cases hs with
      | readFileFails _ hf =>
        obtain ⟨-, -, rfl⟩ := runs_done.1 hr
        exact .inr rfl
      | readFile =>
        cases hb : fs p with
        | none =>
          rw [hb] at hr
          obtain ⟨-, -, rfl⟩ := runs_done.1 hr
          exact .inr rfl
        | some b =>
          rw [hb] at hr
          simp only at hr
          unfold cachedResultOf
          simp only
          split at hr
          · rename_i hc
            obtain ⟨r, fs1, tr', hs, rfl, hr⟩ := runs_op.1 hr
            cases hs with
            | readFileFails _ hf =>
              obtain ⟨-, -, rfl⟩ := runs_done.1 hr
              exact .inr rfl
            | readFile =>
              obtain ⟨-, -, rfl⟩ := runs_done.1 hr
              rw [hc, hb]; exact .inl rfl
          · rename_i info hc
            obtain ⟨-, -, rfl⟩ := runs_done.1 hr
            rw [hc]; exact .inl rfl
  · rename_i e he
    obtain ⟨-, -, rfl⟩ := runs_done.1 h
    refine ⟨fun _ p hp => ?_, fun p hp => ?_, fun _ => ⟨_, rfl⟩⟩ <;> rw [he] at hp <;> cases hp
  · rename_i he
    exact absurd he (cachePath_ne_panic _ _ _)

theorem runs_getCachedConfig {c : CNIConfig} {name : Bytes} {rt : RuntimeConf} {o : Out (Option (Bytes × RuntimeConf))}
    (h : Runs flt (c.getCachedConfig name rt) fs tr fs' o) :
    fs' = fs ∧ tr.execs = [] ∧ (flt = false → ∀ p, c.cachePath name rt = .ok p → o = cachedConfigOf rt (fs p)) ∧
      (∀ p, c.cachePath name rt = .ok p → o = cachedConfigOf rt (fs p) ∨ o = .ok none) ∧
      ((∀ p, c.cachePath name rt ≠ .ok p) → ∃ g, o = .err g) := by
  have hl := getCachedConfig_looks (c := c) (name := name) (rt := rt)
  have h1 : fs' = fs := (hl.mono fun a ⟨p, hp, _⟩ => by rw [hp]; rfl).readonly h
  have h2 : tr.execs = [] := (hl.mono fun a ⟨p, hp, _⟩ => by rw [hp]; rfl).noExec h
  refine ⟨h1, h2, ?_⟩
  unfold CNIConfig.getCachedConfig at h
  split at h
  · rename_i p hp
    refine ⟨?_, ?_, fun hn => absurd hp (hn p)⟩
    · rintro rfl q hq
      rw [hp] at hq; cases hq
      obtain ⟨r, fs1, tr', hs, rfl, hr⟩ := runs_op.1 h
      cases hs with
      | readFileFails _ hf => cases hf
      | readFile => obtain ⟨-, -, rfl⟩ := runs_done.1 hr; rfl
    · intro q hq
      rw [hp] at hq; cases hq
      obtain ⟨r, fs1, tr', hs, rfl, hr⟩ := runs_op.1 h
      cases hs with
      | readFileFails _ hf => obtain ⟨-, -, rfl⟩ := runs_done.1 hr; exact .inr rfl
      | readFile => obtain ⟨-, -, rfl⟩ := runs_done.1 hr; exact .inl rfl
  · rename_i e he
    obtain ⟨-, -, rfl⟩ := runs_done.1 h
    refine ⟨fun _ p hp => ?_, fun p hp => ?_, fun _ => ⟨_, rfl⟩⟩ <;> rw [he] at hp <;> cases hp
  · rename_i he
    exact absurd he (cachePath_ne_panic _ _ _)

end Verif
