/- What plugins print, the runtime reads: results (C53) and errors (C46). -/
import Verif.Skel.Main
import Verif.Props.PluginOutput
import Verif.Props.Convert
import Verif.Props.Errors
import Verif.Props.Skel
import Verif.Props.EndToEnd

namespace Verif
open Spec
variable {flt : Bool}

/-! ### results -/

theorem lastMember_cons {α : Type} {ms : List (Bytes × α)} {k : Bytes} {v : α} (h : NoMember ms k) : LastMember ((k, v) :: ms) k v :=
  ⟨[], ms, rfl, h⟩

theorem noMember_jopt {b : Bool} {k k' : Bytes} {j : Json} (h : k' ≠ k) : NoMember (jopt b k' j) k := by
  intro m hm
  unfold jopt at hm
  split at hm
  · rw [List.mem_singleton] at hm; rw [hm]; exact h
  · cases hm

theorem noMember_append {α : Type} {a b : List (Bytes × α)} {k : Bytes} (ha : NoMember a k) (hb : NoMember b k) : NoMember (a ++ b) k := by
  intro m hm
  rcases List.mem_append.1 hm with h | h
  · exact ha m h
  · exact hb m h

theorem version_first {l : List (Bytes × Json)} {v : Bytes} (hv : v ≠ []) (hl : NoMember l b!"cniVersion") :
    NamesVersion (jopt (decide (v ≠ [])) b!"cniVersion" (.str v) ++ l) v := by
  rw [jopt, if_pos (by simpa using hv)]
  exact ⟨lastMember_cons hl, hv⟩

/-- The document of a result names its version. -/
theorem json_names_version {r : Result} {j : Json} (h : r.json = some j) (hv : r.version ≠ []) :
    ∃ ms, j = .obj ms ∧ NamesVersion ms r.version := by
  have hdns : ∀ d : Json, NoMember [(b!"dns", d)] b!"cniVersion" := by
    intro d m hm; rw [List.mem_singleton] at hm; rw [hm]; exact (by decide : b!"dns" ≠ b!"cniVersion")
  unfold Result.json at h
  split at h
  · cases r with
    | v020 r =>
      simp only [Option.some.injEq] at h
      refine ⟨_, h.symm, ?_⟩
      unfold R020.members
      rw [List.append_assoc, List.append_assoc]
      exact version_first hv (noMember_append (noMember_jopt (by decide)) (noMember_append (noMember_jopt (by decide)) (hdns _)))
    | v040 r =>
      simp only [Option.some.injEq] at h
      refine ⟨_, h.symm, ?_⟩
      unfold R040.members
      rw [List.append_assoc, List.append_assoc, List.append_assoc]
      exact version_first hv (noMember_append (noMember_jopt (by decide)) (noMember_append (noMember_jopt (by decide))
        (noMember_append (noMember_jopt (by decide)) (hdns _))))
    | v100 r =>
      simp only at h
      unfold R100.json at h
      split at h
      · rename_i ms hms
        simp only [Json.toAny, Option.map_eq_some_iff] at hms
        obtain ⟨m, hm, hms⟩ := hms
        simp only [Json.obj.injEq] at hms
        have hn : NamesVersion r.members r.cniVersion := by
          unfold R100.members
          rw [List.append_assoc, List.append_assoc, List.append_assoc]
          exact version_first hv (noMember_append (noMember_jopt (by decide)) (noMember_append (noMember_jopt (by decide))
            (noMember_append (noMember_jopt (by decide)) (hdns _))))
        have hg : GoMap.get? ms b!"cniVersion" = some (.str r.cniVersion) := by
          rw [← hms, toAnyMembers_get? hm, lastMember_iff.1 hn.1]; rfl
        have hsorted : GoMap.Sorted ms := by rw [← hms]; exact GoMap.sorted_ofList _
        simp only [Option.some.injEq] at h
        refine ⟨_, h.symm, ?_, hv⟩
        have hg' : GoMap.get? (if r.dns.isEmpty = true then GoMap.erase ms b!"dns" else ms) b!"cniVersion" = some (.str r.cniVersion) := by
          split
          · rw [GoMap.get?_erase, if_neg (by decide)]; exact hg
          · exact hg
        have hs' : (((if r.dns.isEmpty = true then GoMap.erase ms b!"dns" else ms)).map Prod.fst).Nodup := by
          split
          · exact (GoMap.sorted_nodup hsorted).sublist (List.Sublist.map _ List.filter_sublist)
          · exact GoMap.sorted_nodup hsorted
        rw [lastMember_iff, GoMap.get?_reverse_of_nodup hs']
        exact hg'
      · cases h
  · cases h

/-- C53. What a plugin prints with `PrintResult`, the runtime reads as exactly that result in the version asked for, whatever
configuration (with a readable version) the plugin was given; addresses come back in the form the parsers produce. -/
theorem c53_output (r : Result) (hw : r.version = [] ∨ WellTyped r) (v out : Bytes) (hp : printResult r v = .ok out) (netconf cv : Bytes)
    (hc : decodeVersion netconf = .ok cv) (hrep : ∀ r', r.getAsVersion v = .ok r' → Representable true (std r')) :
    ∃ r', r.getAsVersion v = .ok r' ∧ r'.version = (if v = [] then b!"0.1.0" else v) ∧ resultOfOutput netconf out = .ok (std r') := by
  unfold printResult at hp
  obtain ⟨r', hr', hp⟩ := Out.bind_eq_ok hp
  have hver : r'.version = (if v = [] then b!"0.1.0" else v) ∧ WellTyped r' := by
    rw [c27_getAsVersion] at hr'
    split at hr'
    · rename_i hne
      have := c27_reports_requested hr'
      exact ⟨this.1, this.2 (hw.resolve_left hne)⟩
    · cases r <;> (have := c27_reports_requested hr'; refine ⟨this.1, this.2 ?_⟩; simp only [WellTyped]; decide)
  have hne : r'.version ≠ [] := by
    rw [hver.1]; split
    · decide
    · assumption
  refine ⟨r', hr', hver.1, ?_⟩
  have hrep' := hrep r' hr'
  have hws := (wellTyped_std r').mpr hver.2
  obtain ⟨j, hj, hgood, hread⟩ := Result.json_reads hws hrep' (fun _ => rfl)
  have hjr : r'.json = some j := by rw [← json_std]; exact hj
  unfold Result.printTo at hp
  rw [hjr] at hp
  simp only [Option.map_some, Out.ofOption_some, Out.ok.injEq] at hp
  subst hp
  obtain ⟨ms, rfl, hn⟩ := json_names_version hjr hne
  have hparse := Json.parse_printIndent (.obj ms) hgood.2.1 0
  obtain ⟨j', hany, -⟩ := hgood.toAny
  simp only [Json.toAny, Option.map_eq_some_iff] at hany
  obtain ⟨m, hm, -⟩ := hany
  unfold resultOfOutput
  rw [c33_named netconf _ r'.version cv ms m (.inl hparse) hm hc hn]
  simp only [Out.bind_ok, create, hparse]
  have := hread _ (Json.alike_refl _ hgood.1)
  rwa [version_std] at this

/-- So that is the result of an execution of such a plugin. -/
theorem c53_returned (e : ExecEv) (r : Result) (hw : r.version = [] ∨ WellTyped r) (v out : Bytes) (hp : printResult r v = .ok out)
    (he : e.resp = .ok out) (cv : Bytes) (hc : decodeVersion e.stdin = .ok cv)
    (hrep : ∀ r', r.getAsVersion v = .ok r' → Representable true (std r')) :
    ∃ r', r.getAsVersion v = .ok r' ∧ ∀ x, Returned e x ↔ x = std r' := by
  obtain ⟨r', h1, -, h2⟩ := c53_output r hw v out hp e.stdin cv hc hrep
  refine ⟨r', h1, fun x => ⟨?_, ?_⟩⟩
  · rintro ⟨out', ho, hx⟩
    rw [he] at ho; cases ho
    rw [h2] at hx; cases hx; rfl
  · rintro rfl; exact ⟨out, he, h2⟩

/-- C53 with C12: ADD of a network whose plugin prints a result in the version of its configuration returns that result. -/
theorem c53_add_network (c : CNIConfig) (net : PluginConfig) (rt : RuntimeConf) (hrt : rt.OK) (fs fs' : FS) (tr : Trace) (o : Out Result)
    (h : Runs flt (c.addNetwork net rt) fs tr fs' o) (e : ExecEv) (he : e ∈ tr.execs) (r : Result)
    (hw : r.version = [] ∨ WellTyped r) (v out : Bytes) (hp : printResult r v = .ok out) (ho : e.resp = .ok out)
    (hrep : ∀ r', r.getAsVersion v = .ok r' → Representable true (std r')) (x : Result) (hx : o = .ok x) :
    ∃ r', r.getAsVersion v = .ok r' ∧ x = std r' := by
  obtain ⟨rs, hch, hok, -⟩ := addNetwork_runs hrt h
  have hrs := hok x hx
  subst hrs
  obtain ⟨e', he', hret⟩ := hch.results 0 x rfl
  have hee : e' = e := by
    obtain ⟨i, hi, rfl⟩ := List.mem_iff_getElem.1 he
    cases i with
    | zero => rw [List.getElem?_eq_getElem hi] at he'; exact (Option.some.inj he').symm
    | succ i =>
      obtain ⟨p, hp', _⟩ := hch.invoked (i + 1) _ (List.getElem?_eq_getElem hi)
      simp at hp'
  subst hee
  obtain ⟨out', ho', hx'⟩ := hret
  have hdec : ∃ cv, decodeVersion e'.stdin = .ok cv := by
    obtain ⟨-, ms, cv, -, hcv, -⟩ := c33_result _ _ _ hx'
    exact ⟨cv, hcv⟩
  obtain ⟨cv, hcv⟩ := hdec
  obtain ⟨r', h1, h2⟩ := c53_returned e' r hw v out hp ho cv hcv hrep
  exact ⟨r', h1, (h2 x).1 ⟨out', ho', hx'⟩⟩

/-! ### errors -/

/-- An error as JSON can carry it: invalid UTF-8 is replaced. -/
def CniErr.carried (e : CniErr) : CniErr := { code := e.code, msg := sanitize e.msg, details := sanitize e.details }

theorem natDigits_numValid (n : Nat) : numValid (natDigits n) = true := numValid_itoa (.ofNat n)

theorem printed_isErrorDoc (e : CniErr) (hc : e.code < 2 ^ 64) : IsErrorDoc e.printed e.carried := by
  have hparse : Json.parse e.printed = some e.json.clean := by
    refine Json.parse_printIndent_clean _ ?_ 0
    unfold CniErr.json
    simp only [Json.NumsOK]
    rw [NumsOKMembers_iff]
    intro m hm
    simp only [List.cons_append, List.nil_append, List.mem_cons] at hm
    rcases hm with rfl | rfl | hm
    · simp only [Json.NumsOK, natDigits_numValid]
    · simp only [Json.NumsOK]
    · split at hm
      · cases hm
      · rw [List.mem_singleton] at hm; subst hm; simp only [Json.NumsOK]
  refine ⟨?_, hc⟩
  have hs1 : sanitize b!"code" = b!"code" := by decide
  have hs2 : sanitize b!"msg" = b!"msg" := by decide
  have hs3 : sanitize b!"details" = b!"details" := by decide
  have hnot : ∀ a ∈ [b!"code", b!"msg", b!"details"], ∀ b ∈ [b!"code", b!"msg", b!"details"], a ≠ b → foldKey a ≠ foldKey b := by decide
  by_cases hd : e.details = []
  · have hj : e.json.clean = .obj [(b!"code", .num (natDigits e.code)), (b!"msg", .str (sanitize e.msg))] := by
      unfold CniErr.json
      rw [if_pos hd]
      simp only [List.append_nil, Json.clean, Json.cleanMembers, hs1, hs2]
    refine ⟨_, hparse.trans (congrArg some hj), .inl ⟨[], _, rfl, ?_⟩, .inl ⟨[_], [], rfl, ?_⟩, .inr ⟨?_, by simp only [CniErr.carried, hd]; decide⟩⟩
    · intro m hm; simp only [List.nil_append, List.mem_singleton] at hm; subst hm; exact hnot _ (by simp) _ (by simp) (by dsimp only; decide)
    · intro m hm; simp only [List.append_nil, List.mem_singleton] at hm; subst hm; exact hnot _ (by simp) _ (by simp) (by dsimp only; decide)
    · intro m hm
      simp only [List.mem_cons, List.not_mem_nil, or_false] at hm
      rcases hm with rfl | rfl <;> exact hnot _ (by simp) _ (by simp) (by dsimp only; decide)
  · have hj : e.json.clean = .obj [(b!"code", .num (natDigits e.code)), (b!"msg", .str (sanitize e.msg)),
        (b!"details", .str (sanitize e.details))] := by
      unfold CniErr.json
      rw [if_neg hd]
      simp only [List.cons_append, List.nil_append, Json.clean, Json.cleanMembers, hs1, hs2, hs3]
    refine ⟨_, hparse.trans (congrArg some hj), .inl ⟨[], _, rfl, ?_⟩, .inl ⟨[_], [_], rfl, ?_⟩, .inl ⟨[_, _], [], rfl, ?_⟩⟩
    all_goals
      intro m hm
      simp only [List.nil_append, List.append_nil, List.cons_append, List.mem_cons, List.not_mem_nil, or_false] at hm
      rcases hm with rfl | rfl <;> exact hnot _ (by simp) _ (by simp) (by dsimp only; decide)

theorem checkVersionAndCall_stdout (a : CmdArgs) (vi : PluginInfo) (cb : Callback) (fn : Option (CmdArgs → Out Unit)) :
    (checkVersionAndCall a vi cb fn).stdout = [] := by
  unfold checkVersionAndCall; repeat' split
  all_goals rfl

theorem gateLoop_stdout (a : CmdArgs) (vi : PluginInfo) (ver what : Bytes) (cb : Callback) (fn : Option (CmdArgs → Out Unit)) (l : List Bytes) :
    (gateLoop a vi ver what cb fn l).stdout = [] := by
  induction l with
  | nil => rfl
  | cons v l ih =>
    unfold gateLoop; repeat' split
    · rfl
    · rfl
    · exact checkVersionAndCall_stdout ..
    · exact ih

/-- When skel reports an error it has written nothing else. -/
theorem pluginMain_error_stdout {t : SkelProc} {funcs : CNIFuncs} {vi : PluginInfo} {about : Bytes} {ns : Namespaces} {e : CniErr}
    (h : (t.pluginMain funcs vi about ns).out = .error e) : (t.pluginMain funcs vi about ns).stdout = [] := by
  have hat : ∀ a cb fn, (runAttach ns a vi cb fn).stdout = [] := by
    intro a cb fn
    unfold runAttach; simp only; split <;> exact checkVersionAndCall_stdout ..
  have hga : ∀ a m w cb fn, (runGated a vi m w cb fn).stdout = [] := by
    intro a m w cb fn
    unfold runGated; repeat' split
    all_goals first | rfl | exact gateLoop_stdout ..
  unfold SkelProc.pluginMain at h ⊢
  split
  · split <;> rfl
  · rename_i cmd a hcmd
    rw [hcmd] at h
    simp only at h
    repeat' split
    · exact hat ..
    · exact hga ..
    · exact hat ..
    · exact hga ..
    · exact hga ..
    · rename_i h1 h2 h3 h4 h5 h6
      rw [if_neg h1, if_neg h2, if_neg h3, if_neg h4, if_neg h5, if_pos h6] at h
      unfold SkelProc.runVersion at h ⊢
      split
      · rfl
      · rename_i hn; rw [hn] at h; cases h
    · rfl

theorem pluginMain_verb_stdout {t : SkelProc} {funcs : CNIFuncs} {vi : PluginInfo} {about : Bytes} {ns : Namespaces} {v : Callback}
    (h : t.getenv b!"CNI_COMMAND" = verbText v) : (t.pluginMain funcs vi about ns).stdout = [] := by
  have hat : ∀ a cb fn, (runAttach ns a vi cb fn).stdout = [] := by
    intro a cb fn
    unfold runAttach; simp only; split <;> exact checkVersionAndCall_stdout ..
  have hga : ∀ a m w cb fn, (runGated a vi m w cb fn).stdout = [] := by
    intro a m w cb fn
    unfold runGated; repeat' split
    all_goals first | rfl | exact gateLoop_stdout ..
  unfold SkelProc.pluginMain
  split
  · split <;> rfl
  · rename_i cmd a hcmd
    repeat' split
    · exact hat ..
    · exact hga ..
    · exact hat ..
    · exact hga ..
    · exact hga ..
    · rename_i h6
      unfold SkelProc.getCmdArgs at hcmd
      repeat' split at hcmd
      all_goals first
        | cases hcmd; done
        | (rename_i hv; rw [h] at hv; cases v <;> exact absurd hv (by decide))
        | (cases hcmd; rw [h] at h6; cases v <;> exact absurd h6 (by decide))
        | skip
    · rfl

/-- C46, from the plugin: a plugin built with skel whose main function ends in the error `e` (from its callback or from skel)
exits with a failure, and the runtime executing it gets that error: same code, message and details. (Its callback must not have
written to stdout before; what it writes to stderr does not matter.) -/
theorem c46_skel (quote : Bytes → Bytes) (t : SkelProc) (funcs : CNIFuncs) (vi : PluginInfo) (about : Bytes) (ns : Namespaces)
    (printed : Callback × CmdArgs → Bytes) (stderr : Bytes) (e : CniErr) (hc : e.code < 2 ^ 64)
    (he : (t.pluginMain funcs vi about ns).out = .error e) (hq : ∀ x ∈ (t.pluginMain funcs vi about ns).calls, printed x = []) :
    (t.mainFuncs funcs vi about ns printed).status = 1 ∧
      rawExec quote (fun _ => (t.mainFuncs funcs vi about ns printed).runResult stderr) = .error e.carried := by
  have hso : (t.pluginMain funcs vi about ns).stdout = [] := pluginMain_error_stdout he
  have hfl : ((t.pluginMain funcs vi about ns).calls.map printed).flatten = [] := by
    rw [List.flatten_eq_nil_iff]
    intro l hl
    obtain ⟨x, hx, rfl⟩ := List.mem_map.1 hl
    exact hq x hx
  have hm : t.mainFuncs funcs vi about ns printed = { stdout := e.printed, status := 1 } := by
    unfold SkelProc.mainFuncs
    simp only [he, hso, hfl, List.nil_append]
  refine ⟨by rw [hm], ?_⟩
  rw [hm]
  refine c46_error_doc quote _ b!"exit status 1" _ (by simp only [PluginExit.runResult]; decide) ?_ (printed_isErrorDoc e hc)
  rintro ⟨x, hx, hb⟩
  have : (PluginExit.runResult { stdout := e.printed, status := 1 } stderr).err = some b!"exit status 1" := by
    simp only [PluginExit.runResult]; decide
  rw [this] at hx
  cases hx
  revert hb; decide

/-- C46, end to end: if a plugin built with skel, executed during an ADD, ends in the error `ce`, ADD fails with an error in
which `errors.As` finds `ce`. (The same with CHECK, DEL, STATUS and GC, by `c46_skel_answer` and the theorems above.) -/
theorem c46_skel_answer (quote : Bytes → Bytes) (e : ExecEv) (t : SkelProc) (funcs : CNIFuncs) (vi : PluginInfo) (about : Bytes)
    (ns : Namespaces) (printed : Callback × CmdArgs → Bytes) (stderr : Bytes)
    (ha : AnsweredBy quote e (t.mainFuncs funcs vi about ns printed) stderr) (ce : CniErr) (hc : ce.code < 2 ^ 64)
    (he : (t.pluginMain funcs vi about ns).out = .error ce) (hq : ∀ x ∈ (t.pluginMain funcs vi about ns).calls, printed x = []) :
    e.resp = .error (.cni ce.carried) := by
  unfold AnsweredBy at ha
  rw [(c46_skel quote t funcs vi about ns printed stderr ce hc he hq).2] at ha
  exact ha

theorem c46_skel_add (c : CNIConfig) (list : NetConfList) (rt : RuntimeConf) (hrt : rt.OK) (fs fs' : FS) (tr : Trace)
    (o : Out (Option Result)) (h : Runs flt (c.addNetworkList list rt) fs tr fs' o) (e : ExecEv) (hx : e ∈ tr.execs)
    (quote : Bytes → Bytes) (t : SkelProc) (funcs : CNIFuncs) (vi : PluginInfo) (about : Bytes)
    (ns : Namespaces) (printed : Callback × CmdArgs → Bytes) (stderr : Bytes)
    (ha : AnsweredBy quote e (t.mainFuncs funcs vi about ns printed) stderr) (ce : CniErr) (hc : ce.code < 2 ^ 64)
    (he : (t.pluginMain funcs vi about ns).out = .error ce) (hq : ∀ x ∈ (t.pluginMain funcs vi about ns).calls, printed x = []) :
    FailedWith o ce.carried :=
  c46_add_list c list rt hrt fs fs' tr o h e hx _ (c46_skel_answer quote e t funcs vi about ns printed stderr ha ce hc he hq) _ rfl

/-- C53 with C12: ADD of a list whose last plugin prints a result in the version of its configuration returns that result. -/
theorem c53_add_list (c : CNIConfig) (list : NetConfList) (rt : RuntimeConf) (hrt : rt.OK) (fs fs' : FS) (tr : Trace)
    (o : Out (Option Result)) (h : Runs flt (c.addNetworkList list rt) fs tr fs' o) (e : ExecEv) (he : tr.execs.getLast? = some e)
    (r : Result) (hw : r.version = [] ∨ WellTyped r) (v out : Bytes) (hp : printResult r v = .ok out) (ho : e.resp = .ok out)
    (hrep : ∀ r', r.getAsVersion v = .ok r' → Representable true (std r')) (x : Option Result) (hx : o = .ok x) :
    ∃ r', r.getAsVersion v = .ok r' ∧ x = some (std r') := by
  obtain ⟨rs, hch, hok, -⟩ := c12_add_list c list rt hrt fs fs' tr o h
  obtain ⟨h1, h2, h3⟩ := hok x hx
  rw [List.getLast?_eq_getElem?] at he
  have hlt := (List.getElem?_eq_some_iff.1 he).1
  have hrl : tr.execs.length - 1 < rs.length := by omega
  obtain ⟨e', he', hr'⟩ := hch.results _ _ (List.getElem?_eq_getElem hrl)
  rw [he] at he'
  cases he'
  obtain ⟨out', ho', hro⟩ := id hr'
  obtain ⟨-, _, cv, -, hc, -⟩ := c33_result _ _ _ hro
  obtain ⟨r', hg, hret⟩ := c53_returned e r hw v out hp ho cv hc hrep
  refine ⟨r', hg, ?_⟩
  rw [h3, List.getLast?_eq_getElem?, show rs.length - 1 = tr.execs.length - 1 by omega, List.getElem?_eq_getElem hrl, (hret _).1 hr']

/-- C53, from the plugin: what the callbacks of a plugin built with skel print is its answer if it succeeds. -/
theorem c53_skel_answer (quote : Bytes → Bytes) (e : ExecEv) (t : SkelProc) (funcs : CNIFuncs) (vi : PluginInfo) (about : Bytes)
    (ns : Namespaces) (printed : Callback × CmdArgs → Bytes) (stderr : Bytes)
    (ha : AnsweredBy quote e (t.mainFuncs funcs vi about ns printed) stderr) (v : Callback) (a : CmdArgs)
    (hcall : (t.pluginMain funcs vi about ns).calls = [(v, a)]) (he : (t.pluginMain funcs vi about ns).out = .success) :
    e.resp = .ok (printed (v, a)) := by
  have hso : (t.pluginMain funcs vi about ns).stdout = [] := by
    obtain ⟨-, -, b, hb, -, hv⟩ := c35_only_valid t funcs vi about ns v a (by rw [hcall]; simp)
    exact pluginMain_verb_stdout hv.env.command
  have hm : t.mainFuncs funcs vi about ns printed = { stdout := printed (v, a), status := 0 } := by
    unfold SkelProc.mainFuncs
    simp only [he, hso, hcall, List.map_cons, List.map_nil, List.flatten_cons, List.flatten_nil, List.append_nil]
  unfold AnsweredBy at ha
  rw [hm] at ha
  simpa [rawExec, rawExecLoop, PluginExit.runResult] using ha

/-! ### the hypotheses can be met -/

namespace SkelExample

/-- The failing DEL callback: what the process prints, and the error the runtime gets. -/
example : (((proc b!"DEL" b!"c1" conf).mainFuncs funcs vi [] other (fun _ => [])).stdout,
      rawExec id (fun _ => ((proc b!"DEL" b!"c1" conf).mainFuncs funcs vi [] other (fun _ => [])).runResult b!"log")) =
    (b!"{\n    \"code\": 11,\n    \"msg\": \"later\"\n}", .error { code := 11, msg := b!"later" }) := by decide +kernel

example : ((proc b!"DEL" b!"c1" conf).pluginMain funcs vi [] other).out = .error { code := 11, msg := b!"later" } := by decide +kernel

/-- A result printed in version 1.0.0 and in 0.2.0, and what is read. -/
example : ((printResult (.v100 sample100) b!"1.0.0").toOption.bind fun out => (resultOfOutput conf out).toOption) =
      some (std (.v100 { sample100 with cniVersion := b!"1.0.0" })) ∧
    ((printResult (.v100 sample100) b!"0.2.0").toOption.bind fun out => (resultOfOutput conf out).toOption) =
      ((Result.v100 sample100).getAsVersion b!"0.2.0").toOption.map std := by
  constructor <;> decide +kernel

example : ((printResult (.v100 sample100) b!"0.2.0").toOption.isSome ∧ WellTyped (.v100 sample100)) :=
  ⟨by decide +kernel, by simp only [WellTyped]; decide⟩

end SkelExample

end Verif
