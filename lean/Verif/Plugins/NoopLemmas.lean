/- Facts about the files of the noop plugin: they read back. -/
import Verif.Plugins.NoopRecord
import Verif.Libcni.CacheLemmas
import Verif.Props.Exec

namespace Verif
set_option linter.unusedSimpArgs false

/-- What JSON can carry of the arguments: invalid UTF-8 replaced. Proof device: models no code. -/
def CmdArgs.clean (a : CmdArgs) : CmdArgs :=
  { containerID := sanitize a.containerID
    netns := sanitize a.netns
    ifName := sanitize a.ifName
    args := sanitize a.args
    path := sanitize a.path
    netnsOverride := sanitize a.netnsOverride
    stdinData := a.stdinData }

/-- Proof device: models no code. -/
def NoopFile.clean (d : NoopFile) : NoopFile :=
  { reportResult := sanitize d.reportResult
    reportError := sanitize d.reportError
    reportErrorCode := d.reportErrorCode
    reportStderr := sanitize d.reportStderr
    reportVersionSupport := d.reportVersionSupport.map (List.map sanitize)
    exitWithCode := d.exitWithCode
    command := sanitize d.command
    cmdArgs := d.cmdArgs.clean }

/-- Proof device: models no code. -/
def NoopLogEntry.clean (e : NoopLogEntry) : NoopLogEntry := { command := sanitize e.command, cmdArgs := e.cmdArgs.clean }

theorem jCmdArgs_clean (a : CmdArgs) : (jCmdArgs a).clean = jCmdArgs a.clean := by
  have k : ∀ k ∈ cmdArgsFields, sanitize k = k := by decide
  simp only [jCmdArgs, Json.clean, Json.cleanMembers, jBytes_clean, CmdArgs.clean, k _ (by decide : b!"ContainerID" ∈ cmdArgsFields),
    k _ (by decide : b!"Netns" ∈ cmdArgsFields), k _ (by decide : b!"IfName" ∈ cmdArgsFields),
    k _ (by decide : b!"Args" ∈ cmdArgsFields), k _ (by decide : b!"Path" ∈ cmdArgsFields),
    k _ (by decide : b!"NetnsOverride" ∈ cmdArgsFields), k _ (by decide : b!"StdinData" ∈ cmdArgsFields)]

theorem jCmdArgs_numsOK (a : CmdArgs) : (jCmdArgs a).NumsOK := ⟨trivial, trivial, trivial, trivial, trivial, trivial, trivial, trivial⟩

theorem decCmdArgs_json (cur a : CmdArgs) : decCmdArgs cur (jCmdArgs a) = some a := by
  simp only [decCmdArgs, jCmdArgs, structMembers, Option.bind_eq_bind, Option.bind_some, getField_cons, getField_nil]
  have m : ∀ f ∈ cmdArgsFields, ∀ k ∈ cmdArgsFields, fieldMatch cmdArgsFields k = some f ↔ k = f := by decide
  have mm : ∀ f k : Bytes, f ∈ cmdArgsFields → k ∈ cmdArgsFields → (fieldMatch cmdArgsFields k = some f) = (k = f) :=
    fun f k hf hk => propext (m f hf k hk)
  simp only [mm _ _ (by decide : b!"ContainerID" ∈ cmdArgsFields), mm _ _ (by decide : b!"Netns" ∈ cmdArgsFields),
    mm _ _ (by decide : b!"IfName" ∈ cmdArgsFields), mm _ _ (by decide : b!"Args" ∈ cmdArgsFields),
    mm _ _ (by decide : b!"Path" ∈ cmdArgsFields), mm _ _ (by decide : b!"NetnsOverride" ∈ cmdArgsFields),
    mm _ _ (by decide : b!"StdinData" ∈ cmdArgsFields),
    (by decide : b!"ContainerID" ∈ cmdArgsFields), (by decide : b!"Netns" ∈ cmdArgsFields),
    (by decide : b!"IfName" ∈ cmdArgsFields), (by decide : b!"Args" ∈ cmdArgsFields),
    (by decide : b!"Path" ∈ cmdArgsFields), (by decide : b!"NetnsOverride" ∈ cmdArgsFields),
    (by decide : b!"StdinData" ∈ cmdArgsFields)]
  simp (decide := true) only [if_false, if_true,
    List.nil_append, List.append_nil, List.singleton_append, decAll_one, decStr, decBytes_jBytes, Option.bind_some]

theorem numClean (l : Bytes) : (Json.num l).clean = .num l := rfl

theorem NoopFile.json_clean (d : NoopFile) : d.json.clean = d.clean.json := by
  have k : ∀ k ∈ noopFileFields, sanitize k = k := by decide
  have v : (jVersions d.reportVersionSupport).clean = jVersions (d.reportVersionSupport.map (List.map sanitize)) := by
    cases d.reportVersionSupport with
    | none => rfl
    | some l => simp [jVersions, jStrList, Json.clean, cleanList_eq]
  simp only [NoopFile.json, Json.clean, Json.cleanMembers, v, jCmdArgs_clean, NoopFile.clean, jInt,
    k _ (by decide : b!"ReportResult" ∈ noopFileFields), k _ (by decide : b!"ReportError" ∈ noopFileFields),
    k _ (by decide : b!"ReportErrorCode" ∈ noopFileFields), k _ (by decide : b!"ReportStderr" ∈ noopFileFields),
    k _ (by decide : b!"ReportVersionSupport" ∈ noopFileFields), k _ (by decide : b!"ExitWithCode" ∈ noopFileFields),
    k _ (by decide : b!"Command" ∈ noopFileFields), k _ (by decide : b!"CmdArgs" ∈ noopFileFields)]

theorem NoopFile.json_numsOK (d : NoopFile) : d.json.NumsOK := by
  refine ⟨trivial, trivial, numValid_itoa (Int.ofNat d.reportErrorCode), trivial, ?_, numsOK_jInt _, trivial, jCmdArgs_numsOK _, trivial⟩
  cases d.reportVersionSupport with
  | none => trivial
  | some l => exact numsOK_jStrList l

theorem decNoopFile_json {d : NoopFile} (h1 : d.reportErrorCode < 2 ^ 64) (h2 : isInt64 d.exitWithCode) :
    decNoopFile d.json = some d := by
  simp only [decNoopFile, NoopFile.json, structMembers, Option.bind_eq_bind, Option.bind_some, getField_cons, getField_nil]
  have m : ∀ f ∈ noopFileFields, ∀ k ∈ noopFileFields, fieldMatch noopFileFields k = some f ↔ k = f := by decide
  have mm : ∀ f k : Bytes, f ∈ noopFileFields → k ∈ noopFileFields → (fieldMatch noopFileFields k = some f) = (k = f) :=
    fun f k hf hk => propext (m f hf k hk)
  simp only [mm _ _ (by decide : b!"ReportResult" ∈ noopFileFields), mm _ _ (by decide : b!"ReportError" ∈ noopFileFields),
    mm _ _ (by decide : b!"ReportErrorCode" ∈ noopFileFields), mm _ _ (by decide : b!"ReportStderr" ∈ noopFileFields),
    mm _ _ (by decide : b!"ReportVersionSupport" ∈ noopFileFields), mm _ _ (by decide : b!"ExitWithCode" ∈ noopFileFields),
    mm _ _ (by decide : b!"Command" ∈ noopFileFields), mm _ _ (by decide : b!"CmdArgs" ∈ noopFileFields),
    (by decide : b!"ReportResult" ∈ noopFileFields), (by decide : b!"ReportError" ∈ noopFileFields),
    (by decide : b!"ReportErrorCode" ∈ noopFileFields), (by decide : b!"ReportStderr" ∈ noopFileFields),
    (by decide : b!"ReportVersionSupport" ∈ noopFileFields), (by decide : b!"ExitWithCode" ∈ noopFileFields),
    (by decide : b!"Command" ∈ noopFileFields), (by decide : b!"CmdArgs" ∈ noopFileFields)]
  have v : decVersions none (jVersions d.reportVersionSupport) = some d.reportVersionSupport := by
    cases d.reportVersionSupport with
    | none => rfl
    | some l => simp [jVersions, decVersions, jStrList]
  simp (decide := true) only [if_false, if_true,
    List.nil_append, List.append_nil, List.singleton_append, decAll_one, decStr, decUint, parseUint64_natDigits h1, jInt, decInt,
    parseInt64_itoa h2, decCmdArgs_json, v, Option.bind_some]

/-- The debug file reads back. -/
theorem parse_noopFile {d : NoopFile} (h1 : d.reportErrorCode < 2 ^ 64) (h2 : isInt64 d.exitWithCode) :
    (Json.parse d.json.print).bind decNoopFile = some d.clean := by
  rw [Json.parse_print_clean _ d.json_numsOK, NoopFile.json_clean]
  exact decNoopFile_json (d := d.clean) h1 h2

theorem NoopLogEntry.json_clean (e : NoopLogEntry) : e.json.clean = e.clean.json := by
  have k1 : sanitize b!"Command" = b!"Command" := by decide
  have k2 : sanitize b!"CmdArgs" = b!"CmdArgs" := by decide
  simp only [NoopLogEntry.json, Json.clean, Json.cleanMembers, jCmdArgs_clean, NoopLogEntry.clean, k1, k2]

theorem decNoopLogEntry_json (e : NoopLogEntry) : decNoopLogEntry e.json = some e := by
  simp only [decNoopLogEntry, NoopLogEntry.json, structMembers, Option.bind_eq_bind, Option.bind_some, getField_cons, getField_nil]
  have a1 : fieldMatch [b!"Command", b!"CmdArgs"] b!"Command" = some b!"Command" := by decide
  have a2 : fieldMatch [b!"Command", b!"CmdArgs"] b!"CmdArgs" = some b!"CmdArgs" := by decide
  simp only [a1, a2]
  simp (decide := true) only [if_false, if_true,
    List.nil_append, List.append_nil, List.singleton_append, decAll_one, decStr, decCmdArgs_json, Option.bind_some]

theorem decNoopLog_json (l : List NoopLogEntry) : decNoopLog (.arr (l.map NoopLogEntry.json)) = some l := by
  simp only [decNoopLog]
  induction l with
  | nil => rfl
  | cons e l ih => simp [decNoopLogEntry_json, ih]

/-- The command log reads back. -/
theorem parse_noopLog (l : List NoopLogEntry) :
    (Json.parse (Json.arr (l.map NoopLogEntry.json)).print).bind decNoopLog = some (l.map NoopLogEntry.clean) := by
  rw [Json.parse_print_clean _ (numsOK_arr (f := NoopLogEntry.json) (fun e => ⟨trivial, jCmdArgs_numsOK _, trivial⟩) l)]
  have : (Json.arr (l.map NoopLogEntry.json)).clean = .arr ((l.map NoopLogEntry.clean).map NoopLogEntry.json) := by
    simp [Json.clean, cleanList_eq, NoopLogEntry.json_clean]
  rw [this]
  exact decNoopLog_json _

end Verif
