/- The command-line tool. -/
import Verif.Spec.Tool
import Verif.Props.EndToEnd
import Verif.Props.GcComplete
import Verif.Props.CacheUse
import Verif.Types.ResultNums

namespace Verif

open Spec

variable {flt : Bool}

/-! ### the environment -/

theorem firstBinding_find {env : List Bytes} {k : Bytes} (hk : 61 ∉ k) (v : Bytes) :
    FirstBinding env k v ↔ ∃ e, env.find? (fun e => hasPrefix e (k ++ b!"=")) = some e ∧ v = e.drop (k.length + 1) := by
  constructor
  · rintro ⟨a, e, b, rfl, hb, hn⟩
    refine ⟨e, ?_, by rw [hb.1]; simp [List.drop_append]⟩
    rw [List.find?_append]
    have h1 : a.find? (fun e => hasPrefix e (k ++ b!"=")) = none := by
      rw [List.find?_eq_none]
      intro x hx hp
      exact hn x hx _ ((hasPrefix_binds hk).1 hp)
    have h2 : hasPrefix e (k ++ b!"=") = true := by
      rw [hasPrefix_binds hk, hb.1]
      exact ⟨by simp [List.drop_append], hk⟩
    rw [h1, List.find?_cons, h2]
    rfl
  · rintro ⟨e, he, rfl⟩
    rw [List.find?_eq_some_iff_append] at he
    obtain ⟨hp, a, b, rfl, hn⟩ := he
    refine ⟨a, e, b, rfl, (hasPrefix_binds hk).1 hp, fun x hx v' hb => ?_⟩
    have := hn x hx
    rw [Bool.not_eq_true'] at this
    have h2 : hasPrefix x (k ++ b!"=") = true := by
      rw [hasPrefix_binds hk, hb.1]
      exact ⟨by simp [List.drop_append], hk⟩
    rw [this] at h2
    cases h2

theorem unset_find {env : List Bytes} {k : Bytes} (hk : 61 ∉ k) :
    Unset env k ↔ env.find? (fun e => hasPrefix e (k ++ b!"=")) = none := by
  rw [List.find?_eq_none]
  constructor
  · intro h x hx hp
    exact h x hx _ ((hasPrefix_binds hk).1 hp)
  · intro h x hx v hb
    refine h x hx ?_
    rw [hasPrefix_binds hk, hb.1]
    exact ⟨by simp [List.drop_append], hk⟩

theorem envIs_iff {env : List Bytes} {k v : Bytes} (hk : 61 ∉ k) : EnvIs env k v ↔ getenv env k = v := by
  unfold EnvIs getenv
  rw [firstBinding_find hk, unset_find hk]
  cases h : env.find? (fun e => hasPrefix e (k ++ b!"=")) with
  | none => simp [eq_comm]
  | some e => simp [eq_comm]

theorem lookupEnv_iff {env : List Bytes} {k v d : Bytes} (hk : 61 ∉ k) :
    (FirstBinding env k v ∨ (Unset env k ∧ v = d)) ↔ v = (lookupEnv env k).getD d := by
  unfold lookupEnv
  rw [firstBinding_find hk, unset_find hk]
  cases h : env.find? (fun e => hasPrefix e (k ++ b!"=")) with
  | none => simp
  | some e => simp

/-! ### the request -/

theorem absPath_iff {cwd : Option Bytes} {path p : Bytes} : absPath cwd path = .ok p ↔ AbsIs cwd path p := by
  unfold absPath AbsIs isRooted
  by_cases h : path.head? = some 47
  · simp [h, eq_comm]
  · simp only [h, decide_false, Bool.false_eq_true, if_false, false_and, false_or, ne_eq, not_false_eq_true, true_and]
    cases cwd with
    | none => simp
    | some d => simp [eq_comm]

theorem capArgs_iff {t : ToolProc} {caps : GoMap Json} : t.capArgs = .ok caps ↔ CapsOf (getenv t.environ b!"CAP_ARGS") caps := by
  unfold ToolProc.capArgs CapsOf unmarshalMap
  split
  · rename_i h; simp [h, eq_comm]
  · rename_i h
    simp only [h, false_and, false_or, ne_eq, not_false_eq_true, true_and]
    cases hp : Json.parse (getenv t.environ b!"CAP_ARGS") with
    | none => simp
    | some j =>
      cases j with
      | null => simp [decAnyMap, eq_comm]
      | obj ms =>
        simp only [Option.bind_some, Option.some.injEq, Json.obj.injEq, reduceCtorEq, false_and, false_or]
        cases hm : Json.toAnyMembers ms with
        | none => simp [decAnyMap, hm]
        | some m => rw [decAnyMap_obj hm]; simp [hm, eq_comm]
      | bool b => simp [decAnyMap]
      | num l => simp [decAnyMap]
      | str s => simp [decAnyMap]
      | arr l => simp [decAnyMap]

theorem pairsText_ne_nil {l : List (Bytes × Bytes)} (h : l ≠ []) : pairsText l ≠ [] := by
  cases l with
  | nil => exact absurd rfl h
  | cons p l => cases l <;> simp [pairsText]

theorem cniArgs_iff {t : ToolProc} {args : List (Bytes × Bytes)} :
    t.cniArgs = .ok args ↔ ArgsOf (getenv t.environ b!"CNI_ARGS") args := by
  unfold ToolProc.cniArgs ArgsOf
  split
  · rename_i h
    rw [h]
    constructor
    · intro h; cases h; exact ⟨rfl, by simp [CleanPairs], by simp⟩
    · rintro ⟨h1, -⟩
      by_cases hn : args = []
      · rw [hn]
      · exact absurd h1.symm (pairsText_ne_nil hn)
  · rename_i h
    cases hp : parseArgs (getenv t.environ b!"CNI_ARGS") with
    | none =>
      simp only [reduceCtorEq, false_iff]
      rintro ⟨h1, h2, h3⟩
      have hne : args ≠ [] := by rintro rfl; exact h h1
      rw [(c42_parse_iff _ _).2 ⟨hne, h2, h3, h1⟩] at hp
      cases hp
    | some l =>
      obtain ⟨h0, h1, h2, h3⟩ := (c42_parse_iff _ _).1 hp
      constructor
      · intro h; cases h; exact ⟨h3, h1, h2⟩
      · rintro ⟨h4, h5, h6⟩
        have hne : args ≠ [] := by rintro rfl; exact h h4
        have := (c42_parse_iff _ _).2 ⟨hne, h5, h6, h4⟩
        rw [hp] at this
        cases this
        rfl

theorem path_iff {c : CNIConfig} {p : Bytes} :
    splitList p = c.path ↔ joinWith b!":" c.path = p ∧ (p = [] → c.path = []) ∧ ∀ d ∈ c.path, 58 ∉ d := by
  unfold splitList
  split
  · rename_i h
    subst h
    constructor
    · intro h; rw [← h]; simp [joinWith]
    · rintro ⟨-, h, -⟩; rw [h rfl]
  · rename_i h
    constructor
    · intro he
      rw [← he]
      exact ⟨joinWith_splitOn 58 p, fun h' => absurd h' h, splitOn_pieces_no_sep 58 p⟩
    · rintro ⟨h1, -, h2⟩
      rw [← h1]
      refine splitOn_joinWith 58 c.path ?_ h2
      intro hn; rw [hn] at h1; exact h h1.symm

theorem prepare_iff {t : ToolProc} {exe verb name netns : Bytes} {rest : List Bytes} (ht : t.args = exe :: verb :: name :: netns :: rest)
    {list : NetConfList} {c : CNIConfig} {rt : RuntimeConf} :
    t.prepare name netns = .ok (list, c, rt) ↔ Asked t verb list c rt := by
  unfold ToolProc.prepare
  constructor
  · intro h
    obtain ⟨l, h1, h⟩ := Out.bind_eq_ok h
    obtain ⟨caps, h2, h⟩ := Out.bind_eq_ok h
    obtain ⟨args, h3, h⟩ := Out.bind_eq_ok h
    obtain ⟨abs, h4, h⟩ := Out.bind_eq_ok h
    cases h
    exact ⟨⟨exe, name, netns, rest, _, ht, absPath_iff.1 h4, (envIs_iff (by decide)).2 rfl, h1⟩,
      ⟨_, (envIs_iff (by decide)).2 rfl, path_iff.1 rfl⟩, rfl, (lookupEnv_iff (by decide)).2 rfl,
      ⟨_, (envIs_iff (by decide)).2 rfl, cniArgs_iff.1 h3⟩, ⟨_, (envIs_iff (by decide)).2 rfl, capArgs_iff.1 h2⟩, rfl, rfl⟩
  · rintro ⟨⟨exe', name', netns', rest', dir, ht', habs, hdir, hload⟩, ⟨p, hp, hpath⟩, hcid, hif, ⟨a, ha, hargs⟩, ⟨s, hs, hcaps⟩, hc1, hc2⟩
    rw [ht] at ht'
    cases ht'
    rw [envIs_iff (by decide)] at hdir hp ha hs
    subst hdir hp ha hs
    have e1 : loadNetworkConf t.files t.netDir name = .ok list := hload
    rw [e1, Out.bind_ok, capArgs_iff.2 hcaps, Out.bind_ok, cniArgs_iff.2 hargs, Out.bind_ok, absPath_iff.2 habs, Out.bind_ok]
    obtain ⟨path, cd⟩ := c
    obtain ⟨cid, ns, ifn, as, ca, cd2⟩ := rt
    simp only at hc1 hc2 hcid hif hpath ⊢
    subst hc1 hc2
    have hpp : splitList (getenv t.environ b!"CNI_PATH") = path := (path_iff (c := { path := path })).2 hpath
    rw [hpp, hcid, (lookupEnv_iff (by decide)).1 hif]
    rfl


/-- The request determines everything. -/
theorem c61_unique (t : ToolProc) (verb verb' : Bytes) (list list' : NetConfList) (c c' : CNIConfig) (rt rt' : RuntimeConf)
    (h : Asked t verb list c rt) (h' : Asked t verb' list' c' rt') : verb' = verb ∧ list' = list ∧ c' = c ∧ rt' = rt := by
  obtain ⟨exe, name, netns, rest, -, ht, -⟩ := h.request
  obtain ⟨_, _, _, _, -, ht', -⟩ := h'.request
  have e1 := (prepare_iff ht).2 h
  rw [ht] at ht'
  cases ht'
  have e2 := (prepare_iff ht).2 h'
  rw [e1] at e2
  cases e2
  exact ⟨rfl, rfl, rfl, rfl⟩

theorem asked_main {t : ToolProc} {verb : Bytes} {list : NetConfList} {c : CNIConfig} {rt : RuntimeConf} (h : Asked t verb list c rt) :
    t.main = toolCommand verb list c rt := by
  obtain ⟨exe, name, netns, rest, -, ht, -⟩ := h.request
  unfold ToolProc.main
  rw [ht]
  simp only [(prepare_iff ht).2 h]

theorem asked_caps {t : ToolProc} {verb : Bytes} {list : NetConfList} {c : CNIConfig} {rt : RuntimeConf} (h : Asked t verb list c rt) :
    rt.OK ∧ ∀ kv ∈ rt.capArgs, InRange kv.2 := by
  obtain ⟨s, -, hc⟩ := h.caps
  rcases hc with ⟨-, hc⟩ | ⟨-, ⟨-, hc⟩ | ⟨ms, m, hp, hm, hc⟩⟩
  · exact ⟨⟨by rw [hc]; trivial, by simp [hc]⟩, by simp [hc]⟩
  · exact ⟨⟨by rw [hc]; trivial, by simp [hc]⟩, by simp [hc]⟩
  · have h1 := decAnyMap_ok (Json.parse_WF hp) (by simp) (decAnyMap_obj hm) _ rfl
    refine ⟨⟨by rw [hc]; exact h1.1, by rw [hc]; exact h1.2⟩, ?_⟩
    rw [hc]
    intro kv hkv
    exact (toAny_inRange kv.2 (h1.2 kv hkv)).1 ⟨_, Json.toAnyMembers_idem _ _ hm kv (ofList_mem kv hkv)⟩

theorem tool_ends {α : Type} {p : Prog α} {f : α → Bytes} {fs fs' : FS} {tr : Trace} {x : Out ToolExit}
    (h : Runs flt (p.attempt.bind fun x => .done (.ok (toolExit (x.map f)))) fs tr fs' x) :
    ∃ o, Runs flt p fs tr fs' o ∧ EndsAs o (fun a s => s = f a) x := by
  obtain ⟨tr1, tr2, fs1, o1, rfl, h1, h2⟩ := runs_bind.1 h
  obtain ⟨o, h3, rfl⟩ := runs_attempt.1 h1
  cases o with
  | ok a =>
    obtain ⟨rfl, rfl, rfl⟩ := runs_done.1 h2
    exact ⟨.ok a, by simpa using h3, _, rfl, rfl⟩
  | err g =>
    obtain ⟨rfl, rfl, rfl⟩ := runs_done.1 h2
    exact ⟨.err g, by simpa using h3, rfl⟩
  | panic =>
    obtain ⟨rfl, rfl, rfl⟩ := h2
    exact ⟨.panic, by simpa using h3, rfl⟩

/-- C61, `add`: the tool adds the attachment to the network, prints the result and exits with 0; or it fails with the error. -/
theorem c61_add (t : ToolProc) (list : NetConfList) (c : CNIConfig) (rt : RuntimeConf) (ht : Asked t b!"add" list c rt) (fs fs' : FS)
    (tr : Trace) (x : Out ToolExit) (h : Runs flt t.main fs tr fs' x) :
    ∃ o, Runs flt (c.addNetworkList list rt) fs tr fs' o ∧ EndsAs o ResultOutput x := by
  rw [asked_main ht] at h
  unfold toolCommand at h
  rw [if_pos rfl] at h
  obtain ⟨o, h1, h2⟩ := tool_ends h
  refine ⟨o, h1, ?_⟩
  cases o with
  | ok r =>
    obtain ⟨s, rfl, h2⟩ := h2
    refine ⟨_, ?_, h2⟩
    cases r with
    | none => rfl
    | some r =>
      obtain ⟨rs, -, hok, -, -, hc⟩ := addNetworkList_runs (asked_caps ht).1 h1
      obtain ⟨-, hr⟩ := hok _ rfl
      rcases hc with ⟨-, hno⟩ | ⟨-, info, p, hi, -⟩
      · exact absurd rfl (hno _)
      · rw [← hr] at hi
        have hj : ∃ j, r.json = some j := by
          cases hj : r.json with
          | none => simp [cachedInfoOf, prevJson, hj] at hi
          | some j => exact ⟨j, rfl⟩
        obtain ⟨j, hj⟩ := hj
        refine ⟨j, hj, ?_⟩
        simp only [toolPrint, Result.printTo, hj, Option.map_some, Option.getD_some]
        exact Json.parse_printIndent_clean j (Result.json_numsOK hj) 0
  | err g => exact h2
  | panic => exact h2

/-- `check`. -/
theorem c61_check (t : ToolProc) (list : NetConfList) (c : CNIConfig) (rt : RuntimeConf) (ht : Asked t b!"check" list c rt) (fs fs' : FS)
    (tr : Trace) (x : Out ToolExit) (h : Runs flt t.main fs tr fs' x) :
    ∃ o, Runs flt (c.checkNetworkList list rt) fs tr fs' o ∧ EndsAs o (fun _ s => s = []) x := by
  rw [asked_main ht] at h
  unfold toolCommand at h
  rw [if_neg (by decide), if_pos rfl] at h
  exact tool_ends h

/-- `del`. -/
theorem c61_del (t : ToolProc) (list : NetConfList) (c : CNIConfig) (rt : RuntimeConf) (ht : Asked t b!"del" list c rt) (fs fs' : FS)
    (tr : Trace) (x : Out ToolExit) (h : Runs flt t.main fs tr fs' x) :
    ∃ o, Runs flt (c.delNetworkList list rt) fs tr fs' o ∧ EndsAs o (fun _ s => s = []) x := by
  rw [asked_main ht] at h
  unfold toolCommand at h
  rw [if_neg (by decide), if_neg (by decide), if_pos rfl] at h
  exact tool_ends h

/-- `gc`: without a set of valid attachments, whatever the attachment given. -/
theorem c61_gc (t : ToolProc) (list : NetConfList) (c : CNIConfig) (rt : RuntimeConf) (ht : Asked t b!"gc" list c rt) (fs fs' : FS)
    (tr : Trace) (x : Out ToolExit) (h : Runs flt t.main fs tr fs' x) :
    ∃ o, Runs flt (c.gcNetworkList list none) fs tr fs' o ∧ EndsAs o (fun _ s => s = []) x := by
  rw [asked_main ht] at h
  unfold toolCommand at h
  rw [if_neg (by decide), if_neg (by decide), if_neg (by decide), if_pos rfl] at h
  exact tool_ends h

/-- `status`. -/
theorem c61_status (t : ToolProc) (list : NetConfList) (c : CNIConfig) (rt : RuntimeConf) (ht : Asked t b!"status" list c rt) (fs fs' : FS)
    (tr : Trace) (x : Out ToolExit) (h : Runs flt t.main fs tr fs' x) :
    ∃ o, Runs flt (c.getStatusNetworkList list) fs tr fs' o ∧ EndsAs o (fun _ s => s = []) x := by
  rw [asked_main ht] at h
  unfold toolCommand at h
  rw [if_neg (by decide), if_neg (by decide), if_neg (by decide), if_neg (by decide), if_pos rfl] at h
  exact tool_ends h

/-- A finding: a command that does not exist is not an error. Nothing is done, and the exit code is 0. -/
theorem c61_unknown (t : ToolProc) (verb : Bytes) (list : NetConfList) (c : CNIConfig) (rt : RuntimeConf) (ht : Asked t verb list c rt)
    (hv : verb ∉ toolVerbs) (fs fs' : FS) (tr : Trace) (x : Out ToolExit) (h : Runs flt t.main fs tr fs' x) :
    tr = [] ∧ fs' = fs ∧ x = .ok { code := 0 } := by
  rw [asked_main ht] at h
  simp only [toolVerbs, List.mem_cons, List.not_mem_nil, or_false, not_or] at hv
  unfold toolCommand at h
  rw [if_neg hv.1, if_neg hv.2.1, if_neg hv.2.2.1, if_neg hv.2.2.2.1, if_neg hv.2.2.2.2] at h
  exact runs_done.1 h

theorem loadNetworkConf_no_panic (fs : ConfFS) (dir name : Bytes) : loadNetworkConf fs dir name ≠ .panic := by
  intro h
  unfold loadNetworkConf at h
  by_cases hne : fs.readDir dir = .error false
  · simp [confFiles, ConfFS.osReadDir, hne] at h
  obtain ⟨files, hf⟩ := confFiles_total (exts := [b!".conflist"]) hne
  obtain ⟨singles, hs⟩ := confFiles_total (exts := [b!".conf", b!".json"]) hne
  have hl := loadListLoop_first fs name (sortStrings files)
  obtain ⟨r, hr, he⟩ := loadConfLoop_first fs dir name (sortStrings singles)
  rw [hf, Out.bind_ok] at h
  have conf : ∀ o : Out PluginConfig, o ≠ .panic → (o >>= fun c => confListFromConf c) ≠ .panic := by
    intro o ho
    cases o with
    | ok c => exact confListFromConf_no_panic c
    | err g => simp
    | panic => exact absurd rfl ho
  have hcl : loadConfLoop fs dir name (sortStrings singles) ≠ .panic := by
    rw [he]
    rcases hr with ⟨-, rfl⟩ | ⟨_, _, _, -, -, ⟨c, -, -, rfl⟩ | ⟨e, -, rfl⟩⟩ <;> simp
  rcases hl with ⟨-, hl⟩ | ⟨_, _, _, -, -, ⟨c, -, -, hl⟩ | ⟨e, -, hl⟩⟩
  · rw [hl, Out.bind_ok] at h
    simp only [hs, Out.bind_ok] at h
    split at h
    · cases h
    · exact conf _ hcl h
  · rw [hl, Out.bind_ok] at h
    cases h
  · rw [hl] at h
    cases h

theorem prepare_no_panic (t : ToolProc) (name netns : Bytes) : t.prepare name netns ≠ .panic := by
  have caps : t.capArgs ≠ .panic := by
    unfold ToolProc.capArgs
    split
    · simp
    · split <;> simp
  have args : t.cniArgs ≠ .panic := by
    unfold ToolProc.cniArgs
    split
    · simp
    · split <;> simp
  have abs : absPath t.cwd netns ≠ .panic := by
    unfold absPath
    split
    · simp
    · split <;> simp
  have step : ∀ {α β : Type} {o : Out α} {f : α → Out β}, o ≠ .panic → (∀ a, f a ≠ .panic) → (o >>= f) ≠ .panic := by
    intro α β o f ho hf
    cases o with
    | ok a => exact hf a
    | err g => simp
    | panic => exact absurd rfl ho
  unfold ToolProc.prepare
  exact step (loadNetworkConf_no_panic _ _ _) fun _ => step caps fun _ => step args fun _ => step abs fun _ => by simp

/-- A request that is not well formed is refused with code 1 before anything is done. -/
theorem c61_refused (t : ToolProc) (hne : t.args ≠ []) (ht : ∀ verb list c rt, ¬ Asked t verb list c rt) (fs fs' : FS) (tr : Trace)
    (x : Out ToolExit) (h : Runs flt t.main fs tr fs' x) : tr = [] ∧ fs' = fs ∧ ∃ g, x = .ok { code := 1, err := g } := by
  unfold ToolProc.main at h
  split at h
  · rename_i he; exact absurd he hne
  · rename_i exe verb name netns rest he
    split at h
    · rename_i list c rt hp
      exact absurd ((prepare_iff he).1 hp) (ht _ _ _ _)
    · obtain ⟨rfl, rfl, rfl⟩ := runs_done.1 h
      exact ⟨rfl, rfl, _, rfl⟩
    · rename_i hp
      exact absurd hp (prepare_no_panic t name netns)
  · obtain ⟨rfl, rfl, rfl⟩ := runs_done.1 h
    exact ⟨rfl, rfl, _, rfl⟩

/-- The exit code is 0 exactly if the call succeeded. -/
theorem ends_zero {α : Type} {o : Out α} {output : α → Bytes → Prop} {x : ToolExit} (h : EndsAs o output (.ok x)) :
    (x.code = 0 ↔ ∃ a, o = .ok a) ∧ ∀ a, o = .ok a → output a x.stdout := by
  cases o with
  | ok a =>
    obtain ⟨s, hs, h⟩ := h
    cases h
    exact ⟨⟨fun _ => ⟨a, rfl⟩, fun _ => rfl⟩, fun b hb => by cases hb; exact hs⟩
  | err g =>
    cases h
    refine ⟨⟨fun h => ?_, fun h => ?_⟩, fun _ h => ?_⟩
    · cases h
    · obtain ⟨_, h⟩ := h
      cases h
    · cases h
  | panic => cases h

/-- The environment of the plugins: the tool's arguments and search path, as they were written, and the attachment. -/
theorem c61_env (t : ToolProc) (verb : Bytes) (list : NetConfList) (c : CNIConfig) (rt : RuntimeConf) (ht : Asked t verb list c rt)
    (hv : verb = b!"add" ∨ verb = b!"check" ∨ verb = b!"del") (fs fs' : FS) (tr : Trace) (x : Out ToolExit)
    (h : Runs flt t.main fs tr fs' x) (enum : MapEnum) (hen : IsMapOrder enum) (e : ExecEv) (he : e ∈ tr.execs) :
    EnvIs (e.args.env enum t.environ) b!"CNI_COMMAND" (if verb = b!"add" then b!"ADD" else if verb = b!"check" then b!"CHECK" else b!"DEL") ∧
    EnvIs (e.args.env enum t.environ) b!"CNI_CONTAINERID" (b!"cnitool-" ++ hexBytes ((t.sha512 rt.netNS).take 10)) ∧
    EnvIs (e.args.env enum t.environ) b!"CNI_NETNS" rt.netNS ∧ EnvIs (e.args.env enum t.environ) b!"CNI_IFNAME" rt.ifName ∧
    (∀ v, EnvIs (e.args.env enum t.environ) b!"CNI_ARGS" v ↔ EnvIs t.environ b!"CNI_ARGS" v) ∧
    (∀ v, EnvIs (e.args.env enum t.environ) b!"CNI_PATH" v ↔ EnvIs t.environ b!"CNI_PATH" v) := by
  have key : e.args = .args (attachArgs c (if verb = b!"add" then b!"ADD" else if verb = b!"check" then b!"CHECK" else b!"DEL") rt) := by
    obtain ⟨i, hi⟩ := List.mem_iff_getElem?.1 he
    have hok := (asked_caps ht).1
    rcases hv with rfl | rfl | rfl
    · obtain ⟨o, h1, -⟩ := c61_add t list c rt ht fs fs' tr x h
      obtain ⟨rs, hch, -⟩ := addNetworkList_runs hok h1
      obtain ⟨p, -, hin⟩ := hch.invoked i e hi
      exact hin.args
    · obtain ⟨o, h1, -⟩ := c61_check t list c rt ht fs fs' tr x h
      obtain ⟨-, h2, h3, h4⟩ := c15_check_list c list rt hok fs fs' tr o h1
      have hne : tr.execs ≠ [] := by intro h0; rw [h0] at he; cases he
      by_cases ha : AtLeast list.cniVersion (0, 4, 0)
      · cases hd : list.disableCheck with
        | true => exact absurd (h3 ha hd).1 hne
        | false =>
          rcases h4 ha hd with ⟨_, prev, -, hsw, -⟩ | ⟨h0, -⟩
          · obtain ⟨p, -, hin⟩ := hsw.invoked i e hi
            exact hin.args
          · exact absurd h0 hne
      · exact absurd (h2 ha).1 hne
    · obtain ⟨o, h1, -⟩ := c61_del t list c rt ht fs fs' tr x h
      by_cases hr : ∃ p, Reads list.cniVersion p
      · obtain ⟨⟨prev, hsw⟩, -⟩ := c14_del_list c list rt hok fs fs' tr o h1 hr
        obtain ⟨p, -, hin⟩ := hsw.invoked i e hi
        exact hin.args
      · obtain ⟨rfl, -⟩ := c14_del_bad_version c list rt hok fs fs' tr o h1 hr
        cases he
  obtain ⟨g1, g2, g3, g4, g5, g6⟩ := getenv_asEnv hen t.environ
    (attachArgs c (if verb = b!"add" then b!"ADD" else if verb = b!"check" then b!"CHECK" else b!"DEL") rt)
  rw [key]
  obtain ⟨a, ha, hargs⟩ := ht.args
  obtain ⟨p, hp, hpath⟩ := ht.path
  rw [envIs_iff (by decide)] at ha hp
  refine ⟨(envIs_iff (by decide)).2 g1, (envIs_iff (by decide)).2 (g2.trans ht.containerID), (envIs_iff (by decide)).2 g3,
    (envIs_iff (by decide)).2 g5, fun v => ?_, fun v => ?_⟩
  · rw [envIs_iff (by decide), envIs_iff (by decide), ha, hargs.1]
    exact (congrArg (· = v) g4).to_iff
  · rw [envIs_iff (by decide), envIs_iff (by decide), hp, ← hpath.1]
    exact (congrArg (· = v) g6).to_iff

/-- `add`, then `del` for the same namespace (however its path is written), interface and network name, possibly with a changed
configuration: the plugins of `del` get the result that `add` printed, and if `del` exits with 0 the cache is as before `add`,
without an entry of the attachment. -/
theorem c61_add_del (t t2 : ToolProc) (list list2 : NetConfList) (c c2 : CNIConfig) (rt rt2 : RuntimeConf) (ht : Asked t b!"add" list c rt)
    (ht2 : Asked t2 b!"del" list2 c2 rt2) (hname : list2.name = list.name) (hns : rt2.netNS = rt.netNS) (hif : rt2.ifName = rt.ifName)
    (hsha : t2.sha512 = t.sha512) (hne : list.plugins ≠ []) (fs fs1 fs2 : FS) (tr tr2 : Trace) (x x2 : ToolExit)
    (h : Runs false t.main fs tr fs1 (.ok x)) (hx : x.code = 0) (h2 : Runs false t2.main fs1 tr2 fs2 (.ok x2)) :
    ∃ r, ResultOutput (some r) x.stdout ∧
      (Representable true r → AtLeast list2.cniVersion (0, 4, 0) → ∀ r', r.getAsVersion list2.cniVersion = .ok r' →
        Sweep c2 b!"DEL" list2.name list2.cniVersion rt2 list2.plugins.reverse (some r') tr2 ∧
        (x2.code = 0 ↔ AllSucceeded list2.plugins tr2)) ∧
      (x2.code = 0 → fs2 (entryPath c list.name rt) = none ∧ ∀ q, q ≠ entryPath c list.name rt → fs2 q = fs q) := by
  obtain ⟨o, h, he⟩ := c61_add t list c rt ht fs fs1 tr _ h
  obtain ⟨o2, h2, he2⟩ := c61_del t2 list2 c2 rt2 ht2 fs1 fs2 tr2 _ h2
  obtain ⟨hz, hout⟩ := ends_zero he
  obtain ⟨hz2, -⟩ := ends_zero he2
  obtain ⟨r0, rfl⟩ := hz.1 hx
  have hok := (asked_caps ht).1
  have hok2 := (asked_caps ht2).1
  have hsome : ∃ r, r0 = some r := by
    obtain ⟨rs, -, hl, -⟩ := addNetworkList_runs hok h
    obtain ⟨h1, h2⟩ := hl _ rfl
    cases hg : rs.getLast? with
    | none => rw [List.getLast?_eq_none_iff] at hg; rw [hg] at h1; exact absurd (List.length_eq_zero_iff.1 h1.symm) hne
    | some r => exact ⟨r, h2.trans hg⟩
  obtain ⟨r, rfl⟩ := hsome
  have hcid : rt2.containerID = rt.containerID := by rw [ht.containerID, ht2.containerID, hsha, hns]
  have hroot : cacheRoot c2 rt2 = cacheRoot c rt := by
    simp only [cacheRoot, ht.cacheDir.1, ht.cacheDir.2, ht2.cacheDir.1, ht2.cacheDir.2]
  have hent : entryPath c2 list2.name rt2 = entryPath c list.name rt := by simp only [entryPath, hroot, hname, hcid, hif]
  refine ⟨r, hout _ rfl, fun hrep hv r' hr' => ?_, fun hx2 => ?_⟩
  · have := c16_del c c2 list list2 rt rt2 r hok h hrep (asked_caps ht).2 ⟨hname, hcid, hif, hroot⟩ rfl hok2 o2 h2 hv r' hr'
    refine ⟨this.1, ?_⟩
    rw [hz2, ← this.2]
    exact ⟨fun ⟨_, h⟩ => h, fun h => ⟨_, h⟩⟩
  · obtain ⟨u, rfl⟩ := hz2.1 hx2
    have hpl : PlainNames list.name rt := by
      obtain ⟨rs, hch, hl, -, hval, -⟩ := addNetworkList_runs hok h
      refine plainNames_of_valid (hval fun h0 => ?_)
      have := (c12_add_list c list rt hok fs fs1 tr _ h)
      obtain ⟨_, -, h3, -⟩ := this
      have := (h3 _ rfl).2.1
      rw [h0] at this
      exact hne (List.length_eq_zero_iff.1 this.symm)
    have hpl2 : PlainNames list2.name rt2 := by
      obtain ⟨p1, p2, p3⟩ := hpl
      exact ⟨hname ▸ p1, hcid ▸ p2, hif ▸ p3⟩
    refine ⟨hent ▸ c14_del_removes c2 list2 rt2 hok2 hpl2 fs1 fs2 tr2 h2, fun q hq => ?_⟩
    have e1 : fs1 q = fs q := Classical.byContradiction fun hc => hq (c20_add_list c list rt hok hne fs fs1 tr _ h q hc).1
    have e2 : fs2 q = fs1 q := Classical.byContradiction fun hc =>
      hq ((c14_del_files c2 list2 rt2 hok2 hpl2 fs1 fs2 tr2 _ h2 q hc).1.trans hent)
    rw [e2, e1]

/-- `gc` exits with 0: no attachment of the network is left in the cache, of whatever namespace; those of other networks are kept.
(The cache is one that the API has written.) -/
theorem c61_gc_all (t : ToolProc) (list : NetConfList) (c : CNIConfig) (rt : RuntimeConf) (ht : Asked t b!"gc" list c rt)
    (hd : list.disableGC = false) (fs fs' : FS) (tr : Trace) (x : ToolExit) (h : Runs false t.main fs tr fs' (.ok x)) (hx : x.code = 0)
    (hw : OwnNamed c fs) (hid : ∀ a, InCache c fs a → a.containerID ≠ []) :
    (∀ a, InCache c fs' a → a.network ≠ list.name) ∧
    (∀ n a, attachmentIn c fs n = some a → a.network ≠ list.name → attachmentIn c fs' n = some a) ∧
    resultsDir c = b!"/var/lib/cni/results" := by
  obtain ⟨o, h, he⟩ := c61_gc t list c rt ht fs fs' tr _ h
  obtain ⟨u, rfl⟩ := (ends_zero he).1.1 hx
  refine ⟨fun a ha hn => ?_, fun n a ha hn => ?_, ?_⟩
  · exact c23_complete c list none hd fs fs' tr h hw hid a ha ⟨hn, by simp⟩
  · exact (c22_kept c list none fs fs' tr _ h hw n a ha (.inl hn)).2
  · simp only [resultsDir, cacheRoot, ht.cacheDir.1]
    decide +kernel

/-! ### concrete cases -/

namespace Example

/-- A directory with one list. -/
def confDir : ConfFS where
  readDir d := if d = b!"/etc/cni/net.d" then .ok [(b!"10-net.conflist", false)] else .error true
  readFile f := if f = b!"/etc/cni/net.d/10-net.conflist" then
    some b!"{\"cniVersion\":\"1.1.0\",\"name\":\"net\",\"plugins\":[{\"type\":\"a\"},{\"type\":\"b\"}]}" else none

def toolWith (verb netns : Bytes) : ToolProc :=
  { args := [b!"cnitool", verb, b!"net", netns], environ := [b!"CNI_PATH=/bin:/opt", b!"CNI_ARGS=A=1;B=2", b!"CAP_ARGS={\"mac\":\"x\"}"],
    cwd := some b!"/var/run", files := confDir, sha512 := fun b => b.take 10 }

def toolList : NetConfList :=
  { name := b!"net", cniVersion := b!"1.1.0",
    plugins := [{ network := { type := b!"a" }, bytes := b!"{\"type\":\"a\"}" }, { network := { type := b!"b" }, bytes := b!"{\"type\":\"b\"}" }],
    bytes := b!"{\"cniVersion\":\"1.1.0\",\"name\":\"net\",\"plugins\":[{\"type\":\"a\"},{\"type\":\"b\"}]}" }

def toolRt : RuntimeConf :=
  { containerID := b!"cnitool-2f7661722f72756e2f6e", netNS := b!"/var/run/netns/x", ifName := b!"eth0", args := [(b!"A", b!"1"), (b!"B", b!"2")],
    capArgs := [(b!"mac", .str b!"x")] }

def toolCfg : CNIConfig := { path := [b!"/bin", b!"/opt"] }

theorem toolPrepared (verb netns : Bytes) (h : netns = b!"netns/x" ∨ netns = b!"/var/run/./netns/x") :
    (toolWith verb netns).prepare b!"net" netns = .ok (toolList, toolCfg, toolRt) := by
  have key : ∀ {o : Out (NetConfList × CNIConfig × RuntimeConf)} {a}, o.toOption = some a → o = .ok a := by
    intro o a h; cases o <;> simp [Out.toOption] at h; rw [h]
  apply key
  rcases h with rfl | rfl
  · show ((toolWith [] b!"netns/x").prepare b!"net" b!"netns/x").toOption = _
    decide +kernel
  · show ((toolWith [] b!"netns/x").prepare b!"net" b!"/var/run/./netns/x").toOption = _
    decide +kernel

/-- The namespace may be written as a relative path, or not cleaned. -/
theorem toolAsked (verb netns : Bytes) (h : netns = b!"netns/x" ∨ netns = b!"/var/run/./netns/x") :
    Asked (toolWith verb netns) verb toolList toolCfg toolRt := (prepare_iff rfl).1 (toolPrepared verb netns h)

theorem toolMain_eq (verb netns : Bytes) (h : netns = b!"netns/x" ∨ netns = b!"/var/run/./netns/x") :
    (toolWith verb netns).main = toolCommand verb toolList toolCfg toolRt := asked_main (toolAsked verb netns h)

/-- `add` prints the last result and stores it; the hypotheses of `c61_add_del` are met. -/
example : ∃ tr fs1 x, Runs false (toolWith b!"add" b!"netns/x").main noFiles tr fs1 (.ok x) ∧
    (tr.execs.map ExecEv.path, x.code, decide (x.stdout = []), (fs1 b!"/var/lib/cni/results/net-cnitool-2f7661722f72756e2f6e-eth0").isSome) =
      ([b!"/bin/a", b!"/bin/b"], 0, false, true) := by
  rw [toolMain_eq _ _ (.inl rfl)]
  obtain ⟨tr, fs1, o, h1, h2⟩ := Prog.interp_exists (flt := false) (find := find) (exec := good) (fs := noFiles)
    (p := toolCommand b!"add" toolList toolCfg toolRt)
    (fun tr fs' (o : Out ToolExit) => o.toOption.map fun (x : ToolExit) => (tr.execs.map ExecEv.path, x.code, decide (x.stdout = []),
      (fs' b!"/var/lib/cni/results/net-cnitool-2f7661722f72756e2f6e-eth0").isSome))
    (b := some ([b!"/bin/a", b!"/bin/b"], 0, false, true)) (by decide +kernel)
  cases o with
  | ok x => exact ⟨tr, fs1, x, h1, by simpa [Out.toOption] using h2⟩
  | err g => simp [Out.toOption] at h2
  | panic => simp [Out.toOption] at h2

/-- `add`, `del` with the namespace written otherwise: both exit with 0 and nothing is left. -/
example : ∃ tr fs2 o, Runs false ((toolWith b!"add" b!"netns/x").main.bind fun x =>
      (toolWith b!"del" b!"/var/run/./netns/x").main.bind fun y => .done (.ok (x.code, y.code))) noFiles tr fs2 o ∧
    (tr.execs.map ExecEv.path, o.toOption, fs2 b!"/var/lib/cni/results/net-cnitool-2f7661722f72756e2f6e-eth0") =
      ([b!"/bin/a", b!"/bin/b", b!"/bin/b", b!"/bin/a"], some (0, 0), none) := by
  rw [toolMain_eq _ _ (.inl rfl), toolMain_eq _ _ (.inr rfl)]
  exact Prog.interp_exists (find := find) (exec := good)
    (fun tr fs' o => (tr.execs.map ExecEv.path, o.toOption, fs' b!"/var/lib/cni/results/net-cnitool-2f7661722f72756e2f6e-eth0"))
    (by decide +kernel)

/-- Requests that are refused. -/
example : ((toolWith b!"add" b!"x").prepare b!"other" b!"x").toOption = none := by decide +kernel

/-- A plugin that fails. -/
example : ∃ tr fs1 o, Runs false (toolWith b!"add" b!"netns/x").main noFiles tr fs1 o ∧
    o.toOption.map (fun x => (x.code, x.stdout, x.err.isSome)) = some (1, [], true) := by
  rw [toolMain_eq _ _ (.inl rfl)]
  exact Prog.interp_exists (find := find) (exec := failB) (fun _ _ (o : Out ToolExit) => o.toOption.map fun (x : ToolExit) => (x.code, x.stdout, x.err.isSome))
    (by decide +kernel)

/-- An unknown command. -/
example : b!"Add" ∉ toolVerbs := by decide

end Example

end Verif
