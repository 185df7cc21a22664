/- C81: what the test plugin (plugins/test/noop) logs of the invocations by libcni. -/
import Verif.Props.Noop
import Verif.Props.EndToEnd

namespace Verif
open Spec

variable {flt : Bool}

theorem noop_supported_reads : ∀ s ∈ noopInfo.supported, ∃ p, Reads s p := by
  intro s hs
  have : ∀ s ∈ noopInfo.supported, (parseVersion s).isSome = true := by decide +kernel
  obtain ⟨p, hp⟩ := Option.isSome_iff_exists.1 (this s hs)
  exact ⟨p, (parseVersion_iff _ _).1 hp⟩

theorem serve_files (w : WriteFaults) (fs : FS) (t : SkelProc) (ns : Namespaces) (vi : PluginInfo) {v : Callback} {ver : Bytes}
    {a : CmdArgs} (hp : Passed t v ver a) (hs : ∀ s ∈ vi.supported, ∃ p, Reads s p) (hv : ver ∈ vi.supported) :
    (noopServe w fs t ns vi).files = (debugBehavior w fs (noopCommand v) a).files := by
  have hf : ∃ f, callbackOf (noopCallbacks w fs) v = some f := by cases v <;> exact ⟨_, rfl⟩
  obtain ⟨f, hf⟩ := hf
  have hc := hp.called (noopCallbacks w fs) vi b!"CNI noop plugin v0.7.0" ns f hf hs hv
  simp only [noopServe, hc]
  split <;> rfl

/-- C81: a process of the plugin that gets a request it can serve does to the files what its callback does. -/
theorem c81_process (w : WriteFaults) (fs : FS) (t : SkelProc) (ns : Namespaces) (stdin : Bytes) (v : Callback) (ver : Bytes) (a : CmdArgs)
    (vs : List Bytes) (hin : t.stdin = .ok stdin) (hvs : noopVersions fs (t.getenv b!"CNI_ARGS") stdin = some vs)
    (hs : ∀ s ∈ vs, ∃ p, Reads s p) (hv : ver ∈ vs) (hp : Passed t v ver a) :
    (noopProcess w fs t ns).files = (debugBehavior w fs (noopCommand v) a).files := by
  have hne : vs ≠ [] := by rintro rfl; cases hv
  simp only [noopProcess, hin, hvs, pluginSupports, if_neg hne]
  exact serve_files w fs t ns _ hp hs hv

/-- C81: a process told to exit with a code prints its result and exits with it. (One byte of it is left.) -/
theorem c81_exit (w : WriteFaults) (fs : FS) (t : SkelProc) (ns : Namespaces) (stdin : Bytes) (v : Callback) (ver : Bytes) (a : CmdArgs)
    (vs : List Bytes) (hin : t.stdin = .ok stdin) (hvs : noopVersions fs (t.getenv b!"CNI_ARGS") stdin = some vs)
    (hs : ∀ s ∈ vs, ∃ p, Reads s p) (hv : ver ∈ vs) (hp : Passed t v ver a) (code : Int)
    (hend : (debugBehavior w fs (noopCommand v) a).ending = .exited code) :
    (noopProcess w fs t ns).exit = { stdout := (debugBehavior w fs (noopCommand v) a).stdout, status := code.toNat % 256 } ∧
      (noopProcess w fs t ns).stderr = (debugBehavior w fs (noopCommand v) a).stderr := by
  have hne : vs ≠ [] := by rintro rfl; cases hv
  simp only [noopProcess, hin, hvs, pluginSupports, if_neg hne]
  have hf : ∃ f, callbackOf (noopCallbacks w fs) v = some f := by cases v <;> exact ⟨_, rfl⟩
  obtain ⟨f, hf⟩ := hf
  have hc := hp.called (noopCallbacks w fs) { cniVersion := currentVersion, supported := vs } b!"CNI noop plugin v0.7.0" ns f hf hs hv
  simp only [noopServe, hc, hend, and_self]

/-- C81: the versions the plugin supports are those its debug file names, its own if it names none; without CNI_ARGS, always its own. -/
theorem c81_versions (fs : FS) (cniArgs stdin path : Bytes) (n : NoopConf) (d : NoopFile)
    (hc : noopGetConfig stdin cniArgs = .ok (path, n)) (hd : readDebug fs path = some d) :
    (cniArgs = [] → noopVersions fs cniArgs stdin = some noopInfo.supported) ∧
    (cniArgs ≠ [] → (d.reportVersionSupport = none → noopVersions fs cniArgs stdin = some noopInfo.supported) ∧
      ∀ vs, d.reportVersionSupport = some vs → noopVersions fs cniArgs stdin = some vs) := by
  refine ⟨fun h => by simp [noopVersions, h], fun h => ⟨fun hv => ?_, fun vs hv => ?_⟩⟩ <;>
    simp [noopVersions, h, hc, hd, hv]

theorem loggingStd_logging {w : WriteFaults} {fs : FS} {log : Bytes} {a : CmdArgs} (h : LoggingStd w fs log a) : Logging w fs log a := by
  obtain ⟨path, n, d, h1, h2, h3, h4, -⟩ := h
  exact ⟨path, n, d, h1, h2, h3, h4⟩

theorem loggingStd_step {w : WriteFaults} {fs : FS} {cb : Callback} {a b : CmdArgs} {log : Bytes}
    (ha : LoggingStd w fs log a) (h : LoggingStd w fs log b) : LoggingStd w (debugBehavior w fs (noopCommand cb) a).files log b := by
  obtain ⟨path, n, d, ht, hn, hne, hp, hv⟩ := h
  obtain ⟨d', ht', e⟩ := told_step (cb := cb) (loggingStd_logging ha) ht hne
  exact ⟨path, n, d', ht', hn, hne, hp, e.trans hv⟩

theorem loggingStd_versions {w : WriteFaults} {fs : FS} {log : Bytes} {a : CmdArgs} (h : LoggingStd w fs log a) :
    noopVersions fs a.args a.stdinData = some noopInfo.supported := by
  obtain ⟨path, n, d, ht, -, -, -, hv⟩ := h
  unfold noopVersions
  split
  · rfl
  · simp only [ht.conf, ht.file, Option.map_some, hv, Option.getD_none]

theorem told_congr {fs : FS} {a b : CmdArgs} {path : Bytes} {n : NoopConf} {d : NoopFile} (h1 : b.args = a.args)
    (h2 : b.stdinData = a.stdinData) (h : NoopTold fs a path n d) : NoopTold fs b path n d :=
  ⟨by rw [h1, h2]; exact h.conf, h.given, h.file⟩

/-- Processes that all pass on a request to be logged. -/
theorem ran_served (w : WriteFaults) (ns : Namespaces) (log : Bytes) (ts : List SkelProc) (rs : List (Callback × CmdArgs)) (fs : FS)
    (hlen : rs.length = ts.length)
    (h : ∀ (i : Nat) t r, ts[i]? = some t → rs[i]? = some r → t.stdin = .ok r.2.stdinData ∧ t.getenv b!"CNI_ARGS" = r.2.args ∧
      (∃ ver ∈ noopInfo.supported, Passed t r.1 ver r.2) ∧ LoggingStd w fs log r.2) :
    ran w ns fs ts = served w fs rs ∧ ∀ r ∈ rs, Logging w fs log r.2 := by
  induction ts generalizing rs fs with
  | nil =>
    have : rs = [] := List.eq_nil_of_length_eq_zero hlen
    subst this
    exact ⟨rfl, by simp⟩
  | cons t ts ih =>
    cases rs with
    | nil => simp at hlen
    | cons r rs =>
      obtain ⟨h1, h2, ⟨ver, hver, hp⟩, h4⟩ := h 0 t r rfl rfl
      have hproc : (noopProcess w fs t ns).files = (debugBehavior w fs (noopCommand r.1) r.2).files :=
        c81_process w fs t ns r.2.stdinData r.1 ver r.2 noopInfo.supported h1 (by rw [h2]; exact loggingStd_versions h4)
          noop_supported_reads hver hp
      have := ih rs (debugBehavior w fs (noopCommand r.1) r.2).files (by simpa using hlen) (fun i t' r' ht' hr' => by
        obtain ⟨k1, k2, k3, k4⟩ := h (i + 1) t' r' ht' hr'
        exact ⟨k1, k2, k3, loggingStd_step h4 k4⟩)
      refine ⟨?_, ?_⟩
      · simp only [ran, List.foldl_cons, hproc, served]
        exact this.1
      · intro x hx
        obtain ⟨i, hi⟩ := List.mem_iff_getElem?.1 hx
        have hlt : i < (t :: ts).length := by
          rw [← hlen]; exact (List.getElem?_eq_some_iff.1 hi).1
        exact loggingStd_logging (h i _ x (List.getElem?_eq_getElem hlt) hi).2.2.2

/-- The log of invocations that all reach the plugin. -/
theorem ran_logs {c : CNIConfig} {v : Callback} {rt : RuntimeConf} {enum : MapEnum} {environ : List Bytes} {es : List ExecEv} {ts : List SkelProc}
    (hts : ProcessesOf enum environ es ts)
    (hacc : ∀ (i : Nat) e t, es[i]? = some e → ts[i]? = some t → SeesAttachment c rt e.stdin (requestArgs t.getenv e.stdin) ∧
      ∃ ver ∈ noopInfo.supported, Passed t v ver (requestArgs t.getenv e.stdin))
    (w : WriteFaults) (ns : Namespaces) (nfs : FS) (log : Bytes) (hlog : log ≠ []) (hw : w log = none) (l : List NoopLogEntry)
    (hl : LogHolds nfs log l) (hall : ∀ e ∈ es, LoggingStd w nfs log { args := pairsText rt.args, stdinData := e.stdin }) :
    ∃ xs, LogHolds (ran w ns nfs ts) log (l ++ xs) ∧ EntriesOf c (verbText v) rt es xs := by
  have hz : (es.zip ts).length = es.length := by simp [hts.1]
  have hget : ∀ (i : Nat) x, (es.zip ts)[i]? = some x → es[i]? = some x.1 ∧ ts[i]? = some x.2 := by
    intro i x hx
    rw [List.getElem?_zip_eq_some] at hx
    exact hx
  obtain ⟨h1, h2⟩ := ran_served w ns log ts ((es.zip ts).map fun x => (v, requestArgs x.2.getenv x.1.stdin)) nfs (by simp [hts.1]) (by
    intro i t r ht hr
    rw [List.getElem?_map, Option.map_eq_some_iff] at hr
    obtain ⟨x, hx, rfl⟩ := hr
    obtain ⟨h3, h4⟩ := hget i x hx
    have : t = x.2 := by rw [ht] at h4; exact Option.some.inj h4
    subst this
    obtain ⟨hsee, hpass⟩ := hacc i x.1 x.2 h3 h4
    have hpo := hts.2 i x.1 x.2 h3 h4
    refine ⟨hpo.stdin, rfl, hpass, ?_⟩
    obtain ⟨path, n, d, ht, hr⟩ := hall x.1 (List.mem_of_getElem? h3)
    exact ⟨path, n, d, told_congr (by exact hsee.args) (by exact hsee.stdinData) ht, hr⟩)
  refine ⟨((es.zip ts).map fun x => (v, requestArgs x.2.getenv x.1.stdin)).map fun r => logEntry (noopCommand r.1) r.2, ?_, ?_, ?_⟩
  · rw [h1]
    exact c81_log w log hlog hw _ nfs l hl h2
  · simp [hts.1]
  · intro i e x he hx
    rw [List.getElem?_map, List.getElem?_map, Option.map_map, Option.map_eq_some_iff] at hx
    obtain ⟨y, hy, rfl⟩ := hx
    obtain ⟨h3, h4⟩ := hget i y hy
    have : e = y.1 := by rw [he] at h3; exact Option.some.inj h3
    subst this
    obtain ⟨hsee, -⟩ := hacc i y.1 y.2 h3 h4
    refine ⟨?_, ?_, ?_, ?_, ?_, ?_, ?_⟩
    · cases v <;> rfl
    · exact congrArg sanitize hsee.containerID
    · exact congrArg sanitize hsee.netns
    · exact congrArg sanitize hsee.ifName
    · exact congrArg sanitize hsee.args
    · exact congrArg sanitize hsee.path
    · exact hsee.stdinData

/-- C81: an ADD of a list of test plugins leaves in their log one entry for each invocation, in order, that says ADD, what the runtime was
told about the attachment, and the configuration the plugin was given. -/
theorem c81_add_list (c : CNIConfig) (list : NetConfList) (rt : RuntimeConf) (hrt : rt.OK) (hns : rt.netNS ≠ [])
    (hpath : joinWith b!":" c.path ≠ []) (hplain : ∀ p ∈ list.plugins, PlainVersion p.bytes)
    (hver : effective (sanitize list.cniVersion) ∈ noopInfo.supported) (fs fs' : FS) (tr : Trace) (o : Out (Option Result))
    (h : Runs flt (c.addNetworkList list rt) fs tr fs' o) (enum : MapEnum) (hen : IsMapOrder enum) (environ : List Bytes)
    (ts : List SkelProc) (hts : ProcessesOf enum environ tr.execs ts) (w : WriteFaults) (ns : Namespaces) (nfs : FS) (log : Bytes)
    (hlog : log ≠ []) (hw : w log = none) (l : List NoopLogEntry) (hl : LogHolds nfs log l)
    (hall : ∀ e ∈ tr.execs, LoggingStd w nfs log { args := pairsText rt.args, stdinData := e.stdin }) :
    ∃ xs, LogHolds (ran w ns nfs ts) log (l ++ xs) ∧ EntriesOf c b!"ADD" rt tr.execs xs := by
  refine ran_logs (v := .add) hts ?_ w ns nfs log hlog hw l hl hall
  intro i e t he ht
  obtain ⟨p, hp, hacc⟩ := c39_add_list c list rt hrt hns hpath fs fs' tr o h enum hen environ i e he t (hts.2 i e t he ht)
  obtain ⟨u, -, hu, hpass⟩ := hacc.version
  refine ⟨hacc.sees, u, ?_, hpass (by simp [minVersion])⟩
  rw [hu (hplain p (List.mem_of_getElem? hp))]
  exact hver

/-- C81 for DEL: the plugins of the list in reverse. -/
theorem c81_del_list (c : CNIConfig) (list : NetConfList) (rt : RuntimeConf) (hrt : rt.OK) (hcid : ValidName rt.containerID)
    (hname : ValidName list.name) (hif : ValidIfName rt.ifName)
    (hpath : joinWith b!":" c.path ≠ []) (hplain : ∀ p ∈ list.plugins, PlainVersion p.bytes)
    (hver : effective (sanitize list.cniVersion) ∈ noopInfo.supported) (fs fs' : FS) (tr : Trace) (o : Out Unit)
    (h : Runs flt (c.delNetworkList list rt) fs tr fs' o) (enum : MapEnum) (hen : IsMapOrder enum) (environ : List Bytes)
    (ts : List SkelProc) (hts : ProcessesOf enum environ tr.execs ts) (w : WriteFaults) (ns : Namespaces) (nfs : FS) (log : Bytes)
    (hlog : log ≠ []) (hw : w log = none) (l : List NoopLogEntry) (hl : LogHolds nfs log l)
    (hall : ∀ e ∈ tr.execs, LoggingStd w nfs log { args := pairsText rt.args, stdinData := e.stdin }) :
    ∃ xs, LogHolds (ran w ns nfs ts) log (l ++ xs) ∧ EntriesOf c b!"DEL" rt tr.execs xs := by
  refine ran_logs (v := .del) hts ?_ w ns nfs log hlog hw l hl hall
  intro i e t he ht
  obtain ⟨p, hp, hacc⟩ := c39_del_list c list rt hrt hcid hname hif hpath fs fs' tr o h enum hen environ i e he t (hts.2 i e t he ht)
  obtain ⟨u, -, hu, hpass⟩ := hacc.version
  refine ⟨hacc.sees, u, ?_, hpass (by simp [minVersion])⟩
  rw [hu (hplain p (by simpa using List.mem_of_getElem? hp))]
  exact hver

/-- C81 for CHECK. -/
theorem c81_check_list (c : CNIConfig) (list : NetConfList) (rt : RuntimeConf) (hrt : rt.OK) (hcid : ValidName rt.containerID)
    (hname : ValidName list.name) (hif : ValidIfName rt.ifName) (hns : rt.netNS ≠ [])
    (hpath : joinWith b!":" c.path ≠ []) (hplain : ∀ p ∈ list.plugins, PlainVersion p.bytes)
    (hver : list.cniVersion ∈ noopInfo.supported) (fs fs' : FS) (tr : Trace) (o : Out Unit)
    (h : Runs flt (c.checkNetworkList list rt) fs tr fs' o) (enum : MapEnum) (hen : IsMapOrder enum) (environ : List Bytes)
    (ts : List SkelProc) (hts : ProcessesOf enum environ tr.execs ts) (w : WriteFaults) (ns : Namespaces) (nfs : FS) (log : Bytes)
    (hlog : log ≠ []) (hw : w log = none) (l : List NoopLogEntry) (hl : LogHolds nfs log l)
    (hall : ∀ e ∈ tr.execs, LoggingStd w nfs log { args := pairsText rt.args, stdinData := e.stdin }) :
    ∃ xs, LogHolds (ran w ns nfs ts) log (l ++ xs) ∧ EntriesOf c b!"CHECK" rt tr.execs xs := by
  refine ran_logs (v := .check) hts ?_ w ns nfs log hlog hw l hl hall
  intro i e t he ht
  obtain ⟨p, hp, hacc, hpass⟩ :=
    c39_check_list c list rt hrt hcid hname hif hns hpath fs fs' tr o h enum hen environ i e he t (hts.2 i e t he ht)
  exact ⟨hacc.sees, _, hver, hpass (hplain p (List.mem_of_getElem? hp))⟩

/-- C81 for STATUS: nothing is said about an attachment. -/
theorem c81_status (c : CNIConfig) (list : NetConfList) (hname : ValidName list.name)
    (hpath : joinWith b!":" c.path ≠ []) (hplain : ∀ p ∈ list.plugins, PlainVersion p.bytes)
    (hver : list.cniVersion ∈ noopInfo.supported) (fs fs' : FS) (tr : Trace) (o : Out Unit)
    (h : Runs flt (c.getStatusNetworkList list) fs tr fs' o) (enum : MapEnum) (hen : IsMapOrder enum) (environ : List Bytes)
    (ts : List SkelProc) (hts : ProcessesOf enum environ tr.execs ts) (w : WriteFaults) (ns : Namespaces) (nfs : FS) (log : Bytes)
    (hlog : log ≠ []) (hw : w log = none) (l : List NoopLogEntry) (hl : LogHolds nfs log l)
    (hall : ∀ e ∈ tr.execs, LoggingStd w nfs log { stdinData := e.stdin }) :
    ∃ xs, LogHolds (ran w ns nfs ts) log (l ++ xs) ∧ EntriesOf c b!"STATUS" {} tr.execs xs := by
  refine ran_logs (v := .status) hts ?_ w ns nfs log hlog hw l hl hall
  intro i e t he ht
  obtain ⟨p, hp, hacc, hpass⟩ :=
    c39_status c list hname hpath fs fs' tr o h enum hen environ e (List.mem_of_getElem? he) t (hts.2 i e t he ht)
  exact ⟨hacc.sees, _, hver, hpass (hplain p hp)⟩

/-! ### concrete cases -/

namespace Example

/-- The debug file: a result and a word on stderr. Test data; models no code. -/
def noopDebug : NoopFile := { reportResult := b!"{\"cniVersion\":\"1.0.0\"}", reportStderr := b!"hello", exitWithCode := 0 }

/-- A debug file and an empty command log. Test data; models no code. -/
def noopFs : FS := fun p => if p = b!"/d" then some noopDebug.json.print else if p = b!"/log" then some [] else none

/-- Test data; models no code. -/
def noopPlug : PluginConfig :=
  { network := { type := b!"a" }, bytes := b!"{\"type\":\"a\",\"debugFile\":\"/d\",\"commandLog\":\"/log\"}" }

/-- Test data; models no code. -/
def noopList : NetConfList := { list with plugins := [noopPlug, noopPlug] }

/-- Test data; models no code. -/
def noopReq : CmdArgs :=
  { containerID := b!"c1", ifName := b!"eth0", args := b!"K=V;DEBUG=/d",
    stdinData := b!"{\"cniVersion\":\"1.0.0\",\"name\":\"n\",\"type\":\"a\",\"debugFile\":\"/x\",\"commandLog\":\"/log\"}" }

/-- The hypotheses on requests hold for it. -/
example : LoggingStd (fun _ => none) noopFs b!"/log" noopReq ∧ LogHolds noopFs b!"/log" [] := by
  have h1 : (noopGetConfig noopReq.stdinData noopReq.args).toOption.map (fun x => (x.1, x.2.commandLog)) = some (b!"/d", b!"/log") := by
    decide +kernel
  have h2 : readDebug noopFs b!"/d" = some noopDebug := by decide +kernel
  refine ⟨?_, .inl (by decide +kernel)⟩
  cases hc : noopGetConfig noopReq.stdinData noopReq.args with
  | ok x =>
    obtain ⟨p, n⟩ := x
    rw [hc] at h1
    simp only [Out.toOption, Option.map_some, Option.some.injEq, Prod.mk.injEq] at h1
    obtain ⟨rfl, hn⟩ := h1
    exact ⟨_, n, noopDebug, ⟨hc, by decide, h2⟩, hn, by decide, rfl, rfl⟩
  | err e => rw [hc] at h1; cases h1
  | panic => rw [hc] at h1; cases h1

/-- Two requests; both are logged, the debug file has the last one, the result is printed. -/
example :
    (readCommandLog (served (fun _ => none) noopFs [(.add, noopReq), (.del, noopReq)]) b!"/log").map (List.map NoopLogEntry.command)
      = some [b!"ADD", b!"DEL"] ∧
    (readDebug (served (fun _ => none) noopFs [(.add, noopReq), (.del, noopReq)]) b!"/d")
      = some { noopDebug with command := b!"DEL", cmdArgs := noopReq } ∧
    (debugBehavior (fun _ => none) noopFs b!"ADD" noopReq).stdout = b!"{\"cniVersion\":\"1.0.0\"}" := by
  decide +kernel

/-- What is left to say of a log. Observation in tests; models no code. -/
def logOf (fs : FS) : Option (List (Bytes × Bytes × Bytes)) :=
  (readCommandLog fs b!"/log").map (List.map fun x => (x.command, x.cmdArgs.containerID, x.cmdArgs.ifName))

/-- An ADD of two test plugins by libcni; the hypotheses on the invocations. -/
example : ∃ tr fs' o, Runs false (cfg.addNetworkList noopList rt) noFiles tr fs' o ∧
    (tr.execs.map fun e => (noopGetConfig e.stdin (pairsText rt.args)).toOption.map (fun x => (x.1, x.2.commandLog)))
    = [some (b!"/d", b!"/log"), some (b!"/d", b!"/log")] :=
  Prog.interp_exists (find := find) (exec := good) (fun tr _ _ =>
    (tr.execs.map fun e => (noopGetConfig e.stdin (pairsText rt.args)).toOption.map (fun x => (x.1, x.2.commandLog)))) (by decide +kernel)

/-- And the log it leaves. -/
example : ∃ tr fs' o, Runs false (cfg.addNetworkList noopList rt) noFiles tr fs' o ∧
    logOf (ran (fun _ => none) nowhere noopFs (tr.execs.map proc))
    = some [(b!"ADD", b!"c1", b!"eth0"), (b!"ADD", b!"c1", b!"eth0")] :=
  Prog.interp_exists (find := find) (exec := good) (fun tr _ _ =>
    logOf (ran (fun _ => none) nowhere noopFs (tr.execs.map proc))) (by decide +kernel)

example : effective (sanitize noopList.cniVersion) ∈ noopInfo.supported ∧ ∀ p ∈ noopList.plugins, PlainVersion p.bytes := by
  refine ⟨by decide +kernel, ?_⟩
  intro p hp
  have : p = noopPlug := by simpa [noopList] using hp
  subst this
  intro ms h
  have e : Json.parse noopPlug.bytes = some (.obj [(b!"type", .str b!"a"), (b!"debugFile", .str b!"/d"), (b!"commandLog", .str b!"/log")]) := by
    decide +kernel
  rw [e] at h
  cases h
  decide +kernel

end Example

end Verif
