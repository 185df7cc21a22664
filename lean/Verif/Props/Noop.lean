/- C81: the test plugin (plugins/test/noop) records every request and behaves as it is told. -/
import Verif.Spec.Noop
import Verif.Plugins.NoopLemmas
import Verif.Types.Created
import Verif.Props.PrevResult
import Verif.Spec.Env

namespace Verif
open Spec

/-- What is read from a debug file. Proof device: models no code. -/
structure NoopFile.Good (d : NoopFile) : Prop where
  text : d.clean = d
  code : d.reportErrorCode < 2 ^ 64
  exit : isInt64 d.exitWithCode

theorem CmdArgs.clean_eq (a : CmdArgs) : a.clean = recordedArgs a := rfl

theorem decAll_utf8 {names : List Bytes} {f : Bytes} {ms : List (Bytes × Json)} (hw : Json.WFMembers ms) {c w : Bytes}
    (hc : isUtf8 c = true) (h : decAll decStr c (getField names f ms) = some w) : isUtf8 w = true :=
  decStr_utf8 (wf_field hw names f) hc h

theorem noopElems_utf8 {l : List Json} (hw : Json.WFList l) {r : List Bytes} (h : decStrElems l = some r) :
    ∀ s ∈ r, isUtf8 s = true := by
  induction l generalizing r with
  | nil => simp only [decStrElems, Option.some.injEq] at h; subst h; simp
  | cons j l ih =>
    cases j <;> simp only [decStrElems, Option.map_eq_some_iff, reduceCtorEq] at h
    all_goals
      obtain ⟨r', hr', rfl⟩ := h
      intro s hs
      rcases List.mem_cons.1 hs with rfl | hs
      · first | rfl | exact hw.1
      · exact ih hw.2 hr' s hs

/-- Proof device: models no code. -/
def CmdArgs.Utf8 (a : CmdArgs) : Prop :=
  isUtf8 a.containerID = true ∧ isUtf8 a.netns = true ∧ isUtf8 a.ifName = true ∧ isUtf8 a.args = true ∧ isUtf8 a.path = true ∧
    isUtf8 a.netnsOverride = true

theorem CmdArgs.Utf8.clean {a : CmdArgs} (h : a.Utf8) : a.clean = a := by
  obtain ⟨h1, h2, h3, h4, h5, h6⟩ := h
  cases a
  simp only [CmdArgs.clean]
  simp only at h1 h2 h3 h4 h5 h6
  rw [sanitize_of_isUtf8 h1, sanitize_of_isUtf8 h2, sanitize_of_isUtf8 h3, sanitize_of_isUtf8 h4, sanitize_of_isUtf8 h5,
    sanitize_of_isUtf8 h6]

theorem decCmdArgs_utf8 {cur a : CmdArgs} {j : Json} (hc : cur.Utf8) (hw : j.WF) (h : decCmdArgs cur j = some a) : a.Utf8 := by
  simp only [decCmdArgs, Option.bind_eq_bind, Option.bind_eq_some_iff] at h
  obtain ⟨ms, hm, v1, e1, v2, e2, v3, e3, v4, e4, v5, e5, v6, e6, v7, e7, h⟩ := h
  simp only [Option.some.injEq] at h
  subst h
  have hw' := wf_struct hm hw
  obtain ⟨h1, h2, h3, h4, h5, h6⟩ := hc
  exact ⟨decAll_utf8 hw' h1 e1, decAll_utf8 hw' h2 e2, decAll_utf8 hw' h3 e3, decAll_utf8 hw' h4 e4, decAll_utf8 hw' h5 e5,
    decAll_utf8 hw' h6 e6⟩

theorem parseUint64_lt {l : Bytes} {n : Nat} (h : parseUint64 l = some n) : n < 2 ^ 64 := by
  simp only [parseUint64] at h
  split at h
  · cases h
  · split at h
    · simp only [Option.some.injEq] at h; omega
    · cases h

theorem decNoopFile_good {j : Json} (hw : j.WF) {d : NoopFile} (h : decNoopFile j = some d) : d.Good := by
  simp only [decNoopFile, Option.bind_eq_bind, Option.bind_eq_some_iff] at h
  obtain ⟨ms, hm, v1, e1, v2, e2, v3, e3, v4, e4, v5, e5, v6, e6, v7, e7, v8, e8, h⟩ := h
  simp only [Option.some.injEq] at h
  subst h
  have hw' := wf_struct hm hw
  have u1 := sanitize_of_isUtf8 (decAll_utf8 hw' (c := []) rfl e1)
  have u2 := sanitize_of_isUtf8 (decAll_utf8 hw' (c := []) rfl e2)
  have u4 := sanitize_of_isUtf8 (decAll_utf8 hw' (c := []) rfl e4)
  have u7 := sanitize_of_isUtf8 (decAll_utf8 hw' (c := []) rfl e7)
  have u8 : v8.Utf8 := decAll_keeps (P := CmdArgs.Utf8) (fun a j a' => decCmdArgs_utf8) ⟨rfl, rfl, rfl, rfl, rfl, rfl⟩ (wf_field hw' _ _) e8
  have u5 : v5.map (List.map sanitize) = v5 := by
    refine decAll_keeps (P := fun v : Option (List Bytes) => v.map (List.map sanitize) = v) ?_ rfl (wf_field hw' _ _) e5
    intro a j a' _ hj hd
    cases j <;> simp only [decVersions, Option.some.injEq, Option.map_eq_some_iff, reduceCtorEq] at hd
    · subst hd; rfl
    · obtain ⟨r, hr, rfl⟩ := hd
      have := noopElems_utf8 hj hr
      simp only [Option.map_some, Option.some.injEq]
      conv => rhs; rw [← List.map_id r]
      exact List.map_congr_left fun s hs => sanitize_of_isUtf8 (this s hs)
  refine ⟨?_, ?_, ?_⟩
  · simp only [NoopFile.clean, u1, u2, u4, u5, u7, u8.clean]
  · refine decAll_keeps (P := fun n : Nat => n < 2 ^ 64) ?_ (by decide) (wf_field hw' _ _) e3
    intro a j a' h0 _ hd
    cases j <;> simp only [decUint, Option.some.injEq, reduceCtorEq] at hd
    · subst hd; exact h0
    · exact parseUint64_lt hd
  · refine decAll_keeps (P := isInt64) ?_ (by constructor <;> decide) (wf_field hw' _ _) e6
    intro a j a' h0 _ hd
    cases j <;> simp only [decInt, Option.some.injEq, reduceCtorEq] at hd
    · subst hd; exact h0
    · exact parseInt64_ok hd

theorem readDebug_good {fs : FS} {p : Bytes} {d : NoopFile} (h : readDebug fs p = some d) : d.Good := by
  simp only [readDebug, Option.bind_eq_some_iff] at h
  obtain ⟨b, -, j, hj, hd⟩ := h
  exact decNoopFile_good (Json.parse_WF hj) hd

/-- A debug file reads back as it was written, up to what is not UTF-8. -/
theorem readDebug_writeDebug {fs : FS} {p : Bytes} {d : NoopFile} {flt : WriteFaults} (hf : flt p = none)
    (h1 : d.reportErrorCode < 2 ^ 64) (h2 : isInt64 d.exitWithCode) :
    readDebug (writeDebug flt fs p d).1 p = some d.clean := by
  simp only [readDebug, writeDebug, osWrite, hf, FS.set_same, Option.bind_some]
  exact parse_noopFile h1 h2

theorem decNoopLog_utf8 {j : Json} (hw : j.WF) {l : List NoopLogEntry} (h : decNoopLog j = some l) : l.map NoopLogEntry.clean = l := by
  cases j <;> simp only [decNoopLog, Option.some.injEq, reduceCtorEq] at h
  · subst h; rfl
  · rename_i js
    induction js generalizing l with
    | nil => simp at h; subst h; rfl
    | cons j js ih =>
      simp only [List.mapM_cons, Option.bind_eq_bind, Option.bind_eq_some_iff] at h
      obtain ⟨e, he, l', hl', h⟩ := h
      simp only [Option.pure_def, Option.some.injEq] at h
      subst h
      simp only [List.map_cons, ih hw.2 hl', List.cons.injEq, and_true]
      simp only [decNoopLogEntry, Option.bind_eq_bind, Option.bind_eq_some_iff] at he
      obtain ⟨ms, hm, v1, e1, v2, e2, he⟩ := he
      simp only [Option.some.injEq] at he
      subst he
      have hw' := wf_struct hm hw.1
      have u2 : v2.Utf8 := decAll_keeps (P := CmdArgs.Utf8) (fun a j a' => decCmdArgs_utf8) ⟨rfl, rfl, rfl, rfl, rfl, rfl⟩ (wf_field hw' _ _) e2
      simp only [NoopLogEntry.clean, u2.clean, sanitize_of_isUtf8 (decAll_utf8 hw' (c := []) rfl e1)]

theorem holds_read {fs : FS} {p : Bytes} {l : List NoopLogEntry} (h : LogHolds fs p l) :
    ∃ buf, fs p = some buf ∧ (if buf = [] then some [] else (Json.parse buf).bind decNoopLog) = some l ∧ l.map NoopLogEntry.clean = l := by
  rcases h with ⟨h, rfl⟩ | h
  · exact ⟨[], h, by simp, rfl⟩
  · simp only [readCommandLog, Option.bind_eq_some_iff] at h
    obtain ⟨buf, hb, j, hj, hd⟩ := h
    refine ⟨buf, hb, ?_, decNoopLog_utf8 (Json.parse_WF hj) hd⟩
    rw [if_neg, hj]
    · exact hd
    · rintro rfl; cases hj

theorem readCommandLog_write {fs : FS} {p : Bytes} {l : List NoopLogEntry} {e : NoopLogEntry} {flt : WriteFaults} (hf : flt p = none)
    (h : LogHolds fs p l) :
    (writeCommandLog flt fs p e).2 = true ∧ readCommandLog (writeCommandLog flt fs p e).1 p = some (l ++ [e.clean]) ∧
      ∀ q, q ≠ p → (writeCommandLog flt fs p e).1 q = fs q := by
  obtain ⟨buf, hb, hl, hc⟩ := holds_read h
  simp only [writeCommandLog, hb, hl, osWrite, hf]
  refine ⟨trivial, ?_, fun q hq => FS.set_other _ _ hq⟩
  simp only [readCommandLog, FS.set_same, Option.bind_some]
  rw [parse_noopLog]
  simp [hc]

theorem osWrite_other {flt : WriteFaults} {fs : FS} {p c q : Bytes} (h : q ≠ p) : (osWrite flt fs p c).1 q = fs q := by
  unfold osWrite
  split <;> exact FS.set_other _ _ h

theorem writeCommandLog_other {flt : WriteFaults} {fs : FS} {p q : Bytes} {e : NoopLogEntry} (h : q ≠ p) :
    (writeCommandLog flt fs p e).1 q = fs q := by
  unfold writeCommandLog
  split
  · rfl
  · split
    · rfl
    · exact osWrite_other h

/-- The effect of a request that is told what to do, spelled out. -/
theorem behavior_eq {flt : WriteFaults} {fs : FS} {command path : Bytes} {a : CmdArgs} {n : NoopConf} {d : NoopFile}
    (h : NoopTold fs a path n d) :
    debugBehavior flt fs command a =
      (let d' := { d with cmdArgs := a, command := command }
       let w := writeDebug flt fs path d'
       if w.2 = false then { files := w.1, ending := .returned (.err (.text b!"cannot write the debug file")) }
       else
         let l := if n.commandLog = [] then (w.1, true)
           else writeCommandLog flt w.1 n.commandLog { command := command, cmdArgs := a }
         if l.2 = false then { files := l.1, ending := .returned (.err (.text b!"cannot write the command log")) }
         else { files := l.1, stdout := (noopReport d' n.conf).1, stderr := d'.reportStderr, ending := (noopReport d' n.conf).2 }) := by
  simp only [debugBehavior, h.conf, h.file, if_neg h.given]

theorem readDebug_congr {fs fs' : FS} {p : Bytes} (h : fs' p = fs p) : readDebug fs' p = readDebug fs p := by
  simp only [readDebug, h]

theorem readLog_congr {fs fs' : FS} {p : Bytes} (h : fs' p = fs p) : readCommandLog fs' p = readCommandLog fs p := by
  simp only [readCommandLog, h]

theorem holds_congr {fs fs' : FS} {p : Bytes} {l : List NoopLogEntry} (h : fs' p = fs p) (hl : LogHolds fs p l) : LogHolds fs' p l := by
  rcases hl with ⟨h1, h2⟩ | h1
  · exact .inl ⟨by rw [h, h1], h2⟩
  · exact .inr (by rw [readLog_congr h, h1])

theorem command_utf8 (cb : Callback) : sanitize (noopCommand cb) = noopCommand cb := by cases cb <;> decide

/-- C81: what a test writes into a debug file is what the plugin reads from it. -/
theorem c81_debug_file (flt : WriteFaults) (fs : FS) (p : Bytes) (d : NoopFile) (hf : flt p = none)
    (h1 : d.reportErrorCode < 2 ^ 64) (h2 : isInt64 d.exitWithCode) :
    (writeDebug flt fs p d).2 = true ∧
    readDebug (writeDebug flt fs p d).1 p = some { d with
      reportResult := sanitize d.reportResult
      reportError := sanitize d.reportError
      reportStderr := sanitize d.reportStderr
      reportVersionSupport := d.reportVersionSupport.map (List.map sanitize)
      command := sanitize d.command
      cmdArgs := recordedArgs d.cmdArgs } ∧
    ∀ q, q ≠ p → (writeDebug flt fs p d).1 q = fs q :=
  ⟨by simp [writeDebug, osWrite, hf], readDebug_writeDebug hf h1 h2, fun _ h => osWrite_other h⟩

/-- C81: the request is recorded in the debug file, which is otherwise kept. (Also when the command log cannot be written.) -/
theorem c81_records (flt : WriteFaults) (fs : FS) (cb : Callback) (a : CmdArgs) (path : Bytes) (n : NoopConf) (d : NoopFile)
    (h : NoopTold fs a path n d) (hf : flt path = none) (hne : path ≠ n.commandLog) :
    readDebug (debugBehavior flt fs (noopCommand cb) a).files path
      = some { d with command := noopCommand cb, cmdArgs := recordedArgs a } := by
  have hg := readDebug_good h.file
  have hr : readDebug (writeDebug flt fs path { d with cmdArgs := a, command := noopCommand cb }).1 path
      = some { d with command := noopCommand cb, cmdArgs := recordedArgs a } := by
    rw [readDebug_writeDebug (d := { d with cmdArgs := a, command := noopCommand cb }) hf hg.code hg.exit]
    have := hg.text
    simp only [NoopFile.clean] at this ⊢
    rw [command_utf8, CmdArgs.clean_eq]
    congr 1
    cases d
    simp only [NoopFile.mk.injEq] at this ⊢
    simp [this]
  rw [behavior_eq h]
  have hw : (writeDebug flt fs path { d with cmdArgs := a, command := noopCommand cb }).2 = true := by
    simp [writeDebug, osWrite, hf]
  simp only [hw, Bool.true_eq_false, if_false]
  by_cases hl : n.commandLog = []
  · simp only [hl, if_true, Bool.true_eq_false, if_false]
    exact hr
  · simp only [hl, if_false]
    split <;> exact (readDebug_congr (writeCommandLog_other hne)).trans hr

/-- C81: no file is touched but the debug file and the command log the request names. -/
theorem c81_touches (flt : WriteFaults) (fs : FS) (cb : Callback) (a : CmdArgs) (q : Bytes)
    (hq : ∀ path n, noopGetConfig a.stdinData a.args = .ok (path, n) → q ≠ path ∧ q ≠ n.commandLog) :
    (debugBehavior flt fs (noopCommand cb) a).files q = fs q := by
  unfold debugBehavior
  split
  · rfl
  · rfl
  · rename_i path n hc
    obtain ⟨h1, h2⟩ := hq path n hc
    split
    · rfl
    · split
      · rfl
      · simp only
        split
        · exact osWrite_other h1
        · by_cases hl : n.commandLog = []
          · simp only [hl, if_true, Bool.true_eq_false, if_false]
            exact osWrite_other h1
          · simp only [hl, if_false]
            split <;> exact (writeCommandLog_other h2).trans (osWrite_other h1)

/-- C81: a request that names no debug file prints `{}`, succeeds and leaves every file alone. -/
theorem c81_silent (flt : WriteFaults) (fs : FS) (cb : Callback) (a : CmdArgs) (n : NoopConf)
    (h : noopGetConfig a.stdinData a.args = .ok ([], n)) :
    debugBehavior flt fs (noopCommand cb) a =
      { files := fs, stdout := b!"{}", stderr := b!"CNI_ARGS or config empty, no debug behavior\n", ending := .returned (.ok ()) } := by
  simp only [debugBehavior, h, if_true]

/-- C81: with a configuration or CNI_ARGS it cannot read, or a debug file it cannot read, the plugin fails, prints nothing and leaves
every file alone. -/
theorem c81_refuses (flt : WriteFaults) (fs : FS) (cb : Callback) (a : CmdArgs)
    (h : (∀ x, noopGetConfig a.stdinData a.args ≠ .ok x) ∨
      ∃ path n, noopGetConfig a.stdinData a.args = .ok (path, n) ∧ path ≠ [] ∧ readDebug fs path = none) :
    (debugBehavior flt fs (noopCommand cb) a).files = fs ∧ (debugBehavior flt fs (noopCommand cb) a).stdout = [] ∧
      ∃ o, (debugBehavior flt fs (noopCommand cb) a).ending = .returned o ∧ o ≠ .ok () := by
  rcases h with h | ⟨path, n, hc, hp, hd⟩
  · unfold debugBehavior
    split
    · exact ⟨rfl, rfl, _, rfl, by simp⟩
    · exact ⟨rfl, rfl, _, rfl, by simp⟩
    · rename_i hc; exact absurd hc (h _)
  · simp only [debugBehavior, hc, if_neg hp, hd]
    exact ⟨trivial, trivial, _, rfl, by simp⟩

/-- C81: the request is appended to the command log, which must exist. -/
theorem c81_logs (flt : WriteFaults) (fs : FS) (cb : Callback) (a : CmdArgs) (log : Bytes) (hlog : log ≠ []) (hf : flt log = none)
    (l : List NoopLogEntry) (hl : LogHolds fs log l) (h : Logging flt fs log a) :
    readCommandLog (debugBehavior flt fs (noopCommand cb) a).files log = some (l ++ [logEntry (noopCommand cb) a]) := by
  obtain ⟨path, n, d, ht, rfl, hne, hp⟩ := h
  have hw : (writeDebug flt fs path { d with cmdArgs := a, command := noopCommand cb }).2 = true := by
    simp [writeDebug, osWrite, hp]
  have hl' : LogHolds (writeDebug flt fs path { d with cmdArgs := a, command := noopCommand cb }).1 n.commandLog l :=
    holds_congr (osWrite_other (Ne.symm hne)) hl
  obtain ⟨h1, h2, -⟩ := readCommandLog_write (e := { command := noopCommand cb, cmdArgs := a }) hf hl'
  rw [behavior_eq ht]
  simp only [hw, Bool.true_eq_false, if_false, hlog, h1]
  rw [h2]
  simp only [NoopLogEntry.clean, command_utf8, CmdArgs.clean_eq, logEntry]

/-- C81: without its log file, or with one that does not hold a log, the plugin fails after recording the request, and prints nothing. -/
theorem c81_log_missing (flt : WriteFaults) (fs : FS) (cb : Callback) (a : CmdArgs) (path : Bytes) (n : NoopConf) (d : NoopFile)
    (h : NoopTold fs a path n d) (hf : flt path = none) (hne : path ≠ n.commandLog) (hlog : n.commandLog ≠ [])
    (hno : ∀ l, ¬ LogHolds fs n.commandLog l) :
    (debugBehavior flt fs (noopCommand cb) a).files n.commandLog = fs n.commandLog ∧
    (debugBehavior flt fs (noopCommand cb) a).stdout = [] ∧
    ∃ e, (debugBehavior flt fs (noopCommand cb) a).ending = .returned (.err e) := by
  have hw : (writeDebug flt fs path { d with cmdArgs := a, command := noopCommand cb }).2 = true := by
    simp [writeDebug, osWrite, hf]
  have ho : (writeDebug flt fs path { d with cmdArgs := a, command := noopCommand cb }).1 n.commandLog = fs n.commandLog :=
    osWrite_other (Ne.symm hne)
  have hl : writeCommandLog flt (writeDebug flt fs path { d with cmdArgs := a, command := noopCommand cb }).1 n.commandLog
      { command := noopCommand cb, cmdArgs := a }
      = ((writeDebug flt fs path { d with cmdArgs := a, command := noopCommand cb }).1, false) := by
    unfold writeCommandLog
    rw [ho]
    cases hb : fs n.commandLog with
    | none => rfl
    | some buf =>
      simp only
      split
      · rfl
      · rename_i l hl
        split at hl
        · rename_i hnil; subst hnil
          exact absurd (.inl ⟨hb, rfl⟩) (hno [])
        · exact absurd (.inr (by simp only [readCommandLog, hb, Option.bind_some, hl])) (hno l)
  rw [behavior_eq h]
  simp only [hw, Bool.true_eq_false, if_false, hlog, hl, if_true]
  exact ⟨ho, trivial, _, rfl⟩

/-- C81: if a file cannot be written, the plugin fails and prints nothing. If it is the debug file, the log is not touched. -/
theorem c81_write_fails (flt : WriteFaults) (fs : FS) (cb : Callback) (a : CmdArgs) (path : Bytes) (n : NoopConf) (d : NoopFile)
    (h : NoopTold fs a path n d) (hne : path ≠ n.commandLog)
    (hf : flt path ≠ none ∨ (n.commandLog ≠ [] ∧ flt n.commandLog ≠ none)) :
    (debugBehavior flt fs (noopCommand cb) a).stdout = [] ∧
    (∃ e, (debugBehavior flt fs (noopCommand cb) a).ending = .returned (.err e)) ∧
    (flt path ≠ none → (debugBehavior flt fs (noopCommand cb) a).files n.commandLog = fs n.commandLog) := by
  rw [behavior_eq h]
  cases hp : flt path with
  | some left =>
    have hw : (writeDebug flt fs path { d with cmdArgs := a, command := noopCommand cb }).2 = false := by
      simp [writeDebug, osWrite, hp]
    simp only [hw, if_true]
    exact ⟨trivial, ⟨_, rfl⟩, fun _ => osWrite_other (Ne.symm hne)⟩
  | none =>
    have hw : (writeDebug flt fs path { d with cmdArgs := a, command := noopCommand cb }).2 = true := by
      simp [writeDebug, osWrite, hp]
    obtain ⟨h1, h2⟩ : n.commandLog ≠ [] ∧ flt n.commandLog ≠ none := by
      rcases hf with hf | hf
      · exact absurd hp hf
      · exact hf
    have hl : ∀ fs', (writeCommandLog flt fs' n.commandLog { command := noopCommand cb, cmdArgs := a }).2 = false := by
      intro fs'
      unfold writeCommandLog
      split
      · rfl
      · split
        · rfl
        · cases hh : flt n.commandLog with
          | none => exact absurd hh h2
          | some left => simp [osWrite, hh]
    simp only [hw, Bool.true_eq_false, if_false, h1, hl, if_true]
    exact ⟨trivial, ⟨_, rfl⟩, fun hc => absurd rfl hc⟩

theorem told_step {flt : WriteFaults} {fs : FS} {cb : Callback} {a b : CmdArgs} {log path : Bytes} {n : NoopConf} {d : NoopFile}
    (ha : Logging flt fs log a) (h : NoopTold fs b path n d) (hne : path ≠ log) :
    ∃ d', NoopTold (debugBehavior flt fs (noopCommand cb) a).files b path n d' ∧ d'.reportVersionSupport = d.reportVersionSupport := by
  obtain ⟨path', n', d', ht, rfl, hne', hp'⟩ := ha
  by_cases e : path = path'
  · subst e
    refine ⟨_, ⟨h.conf, h.given, c81_records flt fs cb a path n' d' ht hp' hne'⟩, ?_⟩
    have := h.file
    rw [ht.file, Option.some.injEq] at this
    rw [← this]
  · refine ⟨d, ⟨h.conf, h.given, ?_⟩, rfl⟩
    rw [readDebug_congr (c81_touches flt fs cb a path fun p m hc => ?_), h.file]
    rw [ht.conf] at hc
    simp only [Out.ok.injEq, Prod.mk.injEq] at hc
    obtain ⟨rfl, rfl⟩ := hc
    exact ⟨e, hne⟩

theorem logging_step {flt : WriteFaults} {fs : FS} {cb : Callback} {a b : CmdArgs} {log : Bytes}
    (ha : Logging flt fs log a) (h : Logging flt fs log b) : Logging flt (debugBehavior flt fs (noopCommand cb) a).files log b := by
  obtain ⟨path, n, d, ht, hn, hne, hp⟩ := h
  obtain ⟨d', ht', -⟩ := told_step (cb := cb) ha ht hne
  exact ⟨path, n, d', ht', hn, hne, hp⟩

/-- C81: after any sequence of requests that name the log, it holds one entry for each, in order, after what it held. -/
theorem c81_log (flt : WriteFaults) (log : Bytes) (hlog : log ≠ []) (hf : flt log = none) (reqs : List (Callback × CmdArgs)) (fs : FS)
    (l : List NoopLogEntry) (hl : LogHolds fs log l) (h : ∀ r ∈ reqs, Logging flt fs log r.2) :
    LogHolds (served flt fs reqs) log (l ++ reqs.map fun r => logEntry (noopCommand r.1) r.2) := by
  induction reqs generalizing fs l with
  | nil => simpa [served] using hl
  | cons r reqs ih =>
    have h1 := c81_logs flt fs r.1 r.2 log hlog hf l hl (h r (List.mem_cons_self ..))
    have := ih (debugBehavior flt fs (noopCommand r.1) r.2).files (l ++ [logEntry (noopCommand r.1) r.2]) (.inr h1)
      fun x hx => logging_step (h r (List.mem_cons_self ..)) (h x (List.mem_cons_of_mem _ hx))
    simpa [served] using this

theorem served_append (flt : WriteFaults) (fs : FS) (a b : List (Callback × CmdArgs)) :
    served flt fs (a ++ b) = served flt (served flt fs a) b := by simp [served]

theorem logging_served {flt : WriteFaults} {log : Bytes} {reqs : List (Callback × CmdArgs)} {fs : FS} {b : CmdArgs}
    (h : ∀ r ∈ reqs, Logging flt fs log r.2) (hb : Logging flt fs log b) : Logging flt (served flt fs reqs) log b := by
  induction reqs generalizing fs with
  | nil => exact hb
  | cons r reqs ih =>
    have hr := h r (List.mem_cons_self ..)
    exact ih (fs := (debugBehavior flt fs (noopCommand r.1) r.2).files)
      (fun x hx => logging_step hr (h x (List.mem_cons_of_mem _ hx))) (logging_step hr hb)

/-- C81: a debug file holds the last request that named it. -/
theorem c81_last (flt : WriteFaults) (fs : FS) (r : Callback × CmdArgs) (post : List (Callback × CmdArgs)) (path : Bytes) (n : NoopConf)
    (d : NoopFile) (h : NoopTold fs r.2 path n d) (hf : flt path = none) (hne : path ≠ n.commandLog)
    (hpost : ∀ x ∈ post, ∀ p m, noopGetConfig x.2.stdinData x.2.args = .ok (p, m) → path ≠ p ∧ path ≠ m.commandLog) :
    readDebug (served flt fs (r :: post)) path = some { d with command := noopCommand r.1, cmdArgs := recordedArgs r.2 } := by
  have h1 := c81_records flt fs r.1 r.2 path n d h hf hne
  have : ∀ (post : List (Callback × CmdArgs)) (fs' : FS),
      (∀ x ∈ post, ∀ p m, noopGetConfig x.2.stdinData x.2.args = .ok (p, m) → path ≠ p ∧ path ≠ m.commandLog) →
      served flt fs' post path = fs' path := by
    intro post
    induction post with
    | nil => intro fs' _; rfl
    | cons x post ih =>
      intro fs' hx
      exact (ih _ fun y hy => hx y (List.mem_cons_of_mem _ hy)).trans
        (c81_touches flt fs' x.1 x.2 path fun p m hc => hx x (List.mem_cons_self ..) p m hc)
  rw [← h1]
  exact readDebug_congr (this post _ hpost)

/-- C81: the plugin reports what its debug file says, once its files are written. An error comes first; else the result is printed
(the previous one, in the version of the configuration, for `PASSTHROUGH`) and the process exits with the code, if there is one. -/
theorem c81_reports (flt : WriteFaults) (fs : FS) (cb : Callback) (a : CmdArgs) (path : Bytes) (n : NoopConf) (d : NoopFile)
    (h : NoopTold fs a path n d) (hf : flt path = none) (hne : path ≠ n.commandLog)
    (hlog : n.commandLog ≠ [] → flt n.commandLog = none ∧ ∃ l, LogHolds fs n.commandLog l) :
    let r := debugBehavior flt fs (noopCommand cb) a
    let finish := if d.exitWithCode > 0 then NoopEnd.exited d.exitWithCode else .returned (.ok ())
    r.stderr = d.reportStderr ∧
    (d.reportError ≠ [] → r.stdout = [] ∧
      r.ending = .returned (.err (.cni { code := if d.reportErrorCode = 0 then 999 else d.reportErrorCode, msg := d.reportError }))) ∧
    (d.reportError = [] → d.reportResult ≠ b!"PASSTHROUGH" → d.reportResult ≠ b!"INJECT-DNS" →
      r.stdout = d.reportResult ∧ r.ending = finish) ∧
    (d.reportError = [] → d.reportResult = b!"PASSTHROUGH" → ∀ prev res j, n.conf.prevResult = some prev →
      prev.getAsVersion n.conf.cniVersion = .ok res → res.json = some j → r.stdout = j.print ∧ r.ending = finish) ∧
    (d.reportError = [] → d.reportResult = b!"INJECT-DNS" → ∀ prev x res j, n.conf.prevResult = some prev →
      newResultFromResult100 prev = .ok x →
      (Result.v100 { x with dns := { x.dns with nameservers := [b!"1.2.3.4"] } }).getAsVersion n.conf.cniVersion = .ok res →
      res.json = some j → r.stdout = j.print ∧ r.ending = finish) := by
  have hw : (writeDebug flt fs path { d with cmdArgs := a, command := noopCommand cb }).2 = true := by
    simp [writeDebug, osWrite, hf]
  have hr : debugBehavior flt fs (noopCommand cb) a =
      { files := (debugBehavior flt fs (noopCommand cb) a).files
        stdout := (noopReport { d with cmdArgs := a, command := noopCommand cb } n.conf).1
        stderr := d.reportStderr
        ending := (noopReport { d with cmdArgs := a, command := noopCommand cb } n.conf).2 } := by
    rw [behavior_eq h]
    simp only [hw, Bool.true_eq_false, if_false]
    by_cases hl : n.commandLog = []
    · simp only [hl, if_true, Bool.true_eq_false, if_false]
    · obtain ⟨h1, l, h2⟩ := hlog hl
      have hl' : LogHolds (writeDebug flt fs path { d with cmdArgs := a, command := noopCommand cb }).1 n.commandLog l :=
        holds_congr (osWrite_other (Ne.symm hne)) h2
      obtain ⟨h3, -, -⟩ := readCommandLog_write (e := { command := noopCommand cb, cmdArgs := a }) h1 hl'
      simp only [hl, if_false, h3, Bool.true_eq_false]
  simp only
  rw [hr]
  refine ⟨rfl, ?_, ?_, ?_, ?_⟩
  · intro he
    simp only [noopReport, ne_eq, he, not_false_eq_true, if_true, and_self]
  · intro he h1 h2
    simp only [noopReport, ne_eq, he, not_true_eq_false, if_false, h1, h2, or_self, and_self]
  · intro he h1 prev res j hp hv hj
    have : noopPass b!"PASSTHROUGH" n.conf = .ok j.print := by
      simp only [noopPass, hp]
      simp only [show (b!"PASSTHROUGH" = b!"INJECT-DNS") = False by decide, if_false, bind, Out.bind, hv, hj]
    simp only [noopReport, ne_eq, he, not_true_eq_false, if_false, h1, true_or, if_true, this, and_self]
  · intro he h1 prev x res j hp hx hv hj
    have : noopPass b!"INJECT-DNS" n.conf = .ok j.print := by
      simp only [noopPass, hp, if_true, bind, Out.bind, hx, hv, hj]
    simp only [noopReport, ne_eq, he, not_true_eq_false, if_false, h1, or_true, if_true, this, and_self]

theorem splitOn_pair {k v : Bytes} (hk : 61 ∉ k) (hv : 61 ∉ v) : splitOn 61 (k ++ 61 :: v) = [k, v] := by
  rw [splitOn_append_sep _ _ _ hk, splitOn_of_not_mem _ _ hv]

theorem extraLoop_pairs {ps : List (Bytes × Bytes)} (h : ∀ p ∈ ps, 61 ∉ p.1 ∧ 61 ∉ p.2) :
    ∃ m, noopExtraLoop (ps.map fun p => p.1 ++ 61 :: p.2) = .ok m ∧ ∀ k, GoMap.get? m k = GoMap.get? ps.reverse k := by
  induction ps with
  | nil => exact ⟨[], rfl, fun _ => rfl⟩
  | cons p ps ih =>
    obtain ⟨m, hm, hg⟩ := ih fun q hq => h q (List.mem_cons_of_mem _ hq)
    obtain ⟨h1, h2⟩ := h p (List.mem_cons_self ..)
    refine ⟨if (GoMap.get? m p.1).isSome then m else GoMap.insert m p.1 p.2, ?_, ?_⟩
    · simp only [List.map_cons, noopExtraLoop, splitOn_pair h1 h2, hm, bind, Out.bind]
    · intro k
      rw [List.reverse_cons, GoMap.get?_append, ← hg]
      simp only [GoMap.get?]
      by_cases e : p.1 = k
      · subst e
        cases hh : GoMap.get? m p.1 <;> simp [hh]
      · cases hh : (GoMap.get? m p.1).isSome
        · simp [GoMap.get?_insert_ne _ _ e, e]
        · simp [e]

theorem pairsText_eq (ps : List (Bytes × Bytes)) : pairsText ps = joinWith [59] (ps.map fun p => p.1 ++ 61 :: p.2) := by
  induction ps with
  | nil => rfl
  | cons p ps ih =>
    cases ps with
    | nil => rfl
    | cons q l => simp only [pairsText, ih]; simp [joinWith]

theorem extraArgs_pairs {ps : List (Bytes × Bytes)} (h : ∀ p ∈ ps, 61 ∉ p.1 ∧ 61 ∉ p.2 ∧ 59 ∉ p.1 ∧ 59 ∉ p.2) :
    ∃ m, noopExtraArgs (pairsText ps) = .ok m ∧ ∀ k, GoMap.get? m k = GoMap.get? ps.reverse k := by
  cases ps with
  | nil => exact ⟨[], rfl, fun _ => rfl⟩
  | cons p l =>
    obtain ⟨m, hm, hg⟩ := extraLoop_pairs (ps := p :: l) fun q hq => ⟨(h q hq).1, (h q hq).2.1⟩
    refine ⟨m, ?_, hg⟩
    have hne : pairsText (p :: l) ≠ [] := by cases l <;> simp [pairsText]
    rw [noopExtraArgs, if_neg hne, pairsText_eq, splitOn_joinWith]
    · exact hm
    · simp
    · intro s hs
      obtain ⟨q, hq, rfl⟩ := List.mem_map.1 hs
      simp [(h q hq).2.2.1, (h q hq).2.2.2]

/-- C81: the debug file is the one of the last `DEBUG=` in CNI_ARGS; without one, that of the configuration. -/
theorem c81_which (stdin : Bytes) (n : NoopConf) (hn : noopLoadConf stdin = .ok n) (ps : List (Bytes × Bytes))
    (h : ∀ p ∈ ps, 61 ∉ p.1 ∧ 61 ∉ p.2 ∧ 59 ∉ p.1 ∧ 59 ∉ p.2) :
    (∀ pre path post, ps = pre ++ (b!"DEBUG", path) :: post → (∀ p ∈ post, p.1 ≠ b!"DEBUG") →
      noopGetConfig stdin (pairsText ps) = .ok (path, n)) ∧
    ((∀ p ∈ ps, p.1 ≠ b!"DEBUG") → noopGetConfig stdin (pairsText ps) = .ok (n.debugFile, n)) := by
  obtain ⟨m, hm, hg⟩ := extraArgs_pairs h
  have he : noopGetConfig stdin (pairsText ps) = .ok ((GoMap.get? ps.reverse b!"DEBUG").getD n.debugFile, n) := by
    simp only [noopGetConfig, hn, hm, bind, Out.bind, hg]
  have none_of : ∀ l : List (Bytes × Bytes), (∀ p ∈ l, p.1 ≠ b!"DEBUG") → GoMap.get? l b!"DEBUG" = none := by
    intro l
    induction l with
    | nil => intro _; rfl
    | cons q l ih =>
      intro hl
      obtain ⟨x, y⟩ := q
      have := hl (x, y) (List.mem_cons_self ..)
      simp only [GoMap.get?]
      rw [if_neg this, ih fun p hp => hl p (List.mem_cons_of_mem _ hp)]
  constructor
  · intro pre path post hp hpost
    rw [he, hp, List.reverse_append, List.reverse_cons, GoMap.get?_append, GoMap.get?_append,
      none_of post.reverse fun p hq => hpost p (by simpa using hq)]
    simp [GoMap.get?]
  · intro hno
    rw [he, none_of ps.reverse fun p hq => hno p (by simpa using hq)]
    rfl

/-- The part of the debug file the model of Plugins/Noop looks at. Proof device: models no code. -/
def NoopFile.basic (d : NoopFile) : NoopDebug :=
  { reportResult := d.reportResult, reportError := d.reportError, reportErrorCode := d.reportErrorCode }

/-- The model of the plugin that runs the repository's tests (Plugins/Noop, without the recording) agrees with this one. -/
theorem noop_models_agree (flt : WriteFaults) (fs : FS) (cb : Callback) (a : CmdArgs) (path : Bytes) (n : NoopConf) (d : NoopFile)
    (h : NoopTold fs a path n d) (hf : flt path = none) (hlog : n.commandLog = []) (hx : d.exitWithCode ≤ 0) :
    (debugBehavior flt fs (noopCommand cb) a).ending
      = .returned (noopBehavior (fun p => (readDebug fs p).map NoopFile.basic) a >>= fun _ => .ok ()) ∧
    ∀ b, noopBehavior (fun p => (readDebug fs p).map NoopFile.basic) a = .ok b → (debugBehavior flt fs (noopCommand cb) a).stdout = b := by
  have hw : (writeDebug flt fs path { d with cmdArgs := a, command := noopCommand cb }).2 = true := by
    simp [writeDebug, osWrite, hf]
  have hx' : ¬ d.exitWithCode > 0 := by omega
  rw [behavior_eq h]
  simp only [hw, Bool.true_eq_false, if_false, hlog, if_true]
  simp only [noopBehavior, h.conf, bind, Out.bind, if_neg h.given, h.file, Option.map_some, NoopFile.basic, noopReport, hx', if_false]
  by_cases he : d.reportError = []
  · simp only [he, ne_eq, not_true_eq_false, if_false]
    by_cases hr : d.reportResult = b!"PASSTHROUGH" ∨ d.reportResult = b!"INJECT-DNS"
    · simp only [hr, if_true]
      cases hp : noopPass d.reportResult n.conf <;> simp
    · simp only [hr, if_false]
      simp
  · simp only [ne_eq, he, not_false_eq_true, if_true]
    simp

/-- The two models also agree on a request that names no debug file. -/
theorem noop_models_agree_silent (flt : WriteFaults) (fs : FS) (cb : Callback) (a : CmdArgs) (n : NoopConf)
    (h : noopGetConfig a.stdinData a.args = .ok ([], n)) (files : Bytes → Option NoopDebug) :
    noopBehavior files a = .ok b!"{}" ∧ (debugBehavior flt fs (noopCommand cb) a).stdout = b!"{}" ∧
    (debugBehavior flt fs (noopCommand cb) a).ending = .returned (.ok ()) := by
  refine ⟨?_, ?_, ?_⟩
  · simp only [noopBehavior, h, bind, Out.bind, if_true]
  · rw [c81_silent flt fs cb a n h]
  · rw [c81_silent flt fs cb a n h]

/-- And both refuse a request whose configuration or CNI_ARGS cannot be read, or whose debug file cannot be read. -/
theorem noop_models_agree_refused (flt : WriteFaults) (fs : FS) (cb : Callback) (a : CmdArgs)
    (h : (∀ x, noopGetConfig a.stdinData a.args ≠ .ok x) ∨
      ∃ path n, noopGetConfig a.stdinData a.args = .ok (path, n) ∧ path ≠ [] ∧ readDebug fs path = none) :
    (∀ b, noopBehavior (fun p => (readDebug fs p).map NoopFile.basic) a ≠ .ok b) ∧
    ∃ o, (debugBehavior flt fs (noopCommand cb) a).ending = .returned o ∧ o ≠ .ok () := by
  refine ⟨fun b hb => ?_, (c81_refuses flt fs cb a h).2.2⟩
  rcases h with h | ⟨path, n, hc, hp, hd⟩
  · cases hc : noopGetConfig a.stdinData a.args with
    | ok x => exact h x hc
    | err e => simp [noopBehavior, hc, bind, Out.bind] at hb
    | panic => simp [noopBehavior, hc, bind, Out.bind] at hb
  · simp [noopBehavior, hc, bind, Out.bind, hp, hd] at hb

end Verif
