/- C60: the debug plugin. -/
import Verif.Spec.Debug
import Verif.Props.PluginView
import Verif.Props.GetResult
import Verif.Props.EndToEnd

namespace Verif
open Spec
set_option linter.unusedSimpArgs false
variable {flt : Bool}

/-! ### a representable result is in standard form -/

theorem std16_id {ip : IP} (h : AddrOk ip) : std16 ip = ip := by
  unfold std16
  rcases h with rfl | h
  · rfl
  · rw [if_neg (by omega)]

theorem cidrMask4_length (p : Nat) : (cidrMask 4 p).length = 4 := by
  simp only [cidrMask]
  repeat' split
  all_goals rfl

theorem stdNet_id {n : IPNet} (h : n.Canon) : stdNet n = n := by
  obtain ⟨ip, mask⟩ := n
  obtain ⟨h1, p, h2⟩ := h
  simp only at h1 h2
  unfold stdNet
  simp only [std16, if_neg (show ¬ ip.length = 4 by omega)]
  split at h2
  · rename_i h4
    obtain ⟨-, rfl⟩ := h2
    rw [if_neg (by rw [cidrMask4_length]; omega)]
  · rename_i h4
    rw [if_neg (by intro h; exact h4 h.1)]

theorem stdRoute_id {e : Bool} {r : Route} (h : RouteOk e r) : stdRoute r = r := by
  obtain ⟨h1, h2, -⟩ := h
  unfold stdRoute
  rw [stdNet_id h1, std16_id h2]

theorem map_some_id {α : Type} {f : α → α} {l : List (Option α)} (h : ∀ x ∈ l, ∀ a, x = some a → f a = a) : l.map (Option.map f) = l := by
  conv => rhs; rw [← List.map_id l]
  apply List.map_congr_left
  intro x hx
  cases x with
  | none => rfl
  | some a => simp [h _ hx a rfl]

theorem stdIp020_id {e : Bool} {i : Ip020} (h : Ip020Ok e i) : stdIp020 i = i := by
  obtain ⟨h1, h2, h3⟩ := h
  unfold stdIp020
  rw [stdNet_id h1, std16_id h2]
  have : i.routes.map stdRoute = i.routes := by
    conv => rhs; rw [← List.map_id i.routes]
    exact List.map_congr_left fun r hr => stdRoute_id (h3 r hr)
  rw [this]

theorem std_id {e : Bool} {r : Result} (h : Representable e r) : std r = r := by
  cases r with
  | v020 r =>
    obtain ⟨h1, h2, -⟩ := h
    obtain ⟨v, i4, i6, d⟩ := r
    simp only [std]
    have a : i4.map stdIp020 = i4 := by cases i4 with | none => rfl | some i => simp [stdIp020_id (h1 i rfl)]
    have b : i6.map stdIp020 = i6 := by cases i6 with | none => rfl | some i => simp [stdIp020_id (h2 i rfl)]
    rw [a, b]
  | v040 r =>
    obtain ⟨-, h2, h3, -⟩ := h
    simp only [std]
    rw [map_some_id (f := stdIp040) fun x hx a ha => by
        obtain ⟨-, -, h4, h5⟩ := h2 x hx a ha; unfold stdIp040; rw [stdNet_id h4, std16_id h5],
      map_some_id (f := stdRoute) fun x hx a ha => stdRoute_id (h3 x hx a ha)]
  | v100 r =>
    obtain ⟨-, h2, h3, -⟩ := h
    simp only [std]
    rw [map_some_id (f := stdIp100) fun x hx a ha => by
        obtain ⟨-, h4, h5⟩ := h2 x hx a ha; unfold stdIp100; rw [stdNet_id h4, std16_id h5],
      map_some_id (f := stdRoute) fun x hx a ha => stdRoute_id (h3 x hx a ha)]

theorem representable_withVersion {e : Bool} {r : Result} {v : Bytes} : Representable e (restated r v) ↔ Representable e r := by
  cases r <;> rfl

/-! ### up and down again -/

theorem convert_eff (r : Result) (v : Bytes) : convert r v = convert r (effective v) := by
  unfold effective
  split
  · rename_i h; subst h; exact convert_empty r
  · rfl

theorem wellTyped_withVersion {r : Result} (hw : WellTyped r) {v : Bytes} (hf : SameFormat v r.version) :
    WellTyped (restated r (effective v)) := by
  cases r with
  | v100 r =>
    rcases hf with ⟨-, h⟩ | ⟨-, h⟩ | ⟨h, -⟩
    · exact absurd rfl (old_ne_new _ h _ hw)
    · exact absurd rfl (mid_ne_new _ h _ hw)
    · show effective v ∈ new100
      unfold effective; rw [if_neg (new_ne_nil _ h)]; exact h
  | v040 r =>
    rcases hf with ⟨-, h⟩ | ⟨h, -⟩ | ⟨-, h⟩
    · exact absurd rfl (old_ne_mid _ h _ hw)
    · show effective v ∈ mid040
      unfold effective; rw [if_neg (mid_ne_nil _ h)]; exact h
    · exact absurd rfl (mid_ne_new _ hw _ h)
  | v020 r =>
    rcases hf with ⟨h, -⟩ | ⟨-, h⟩ | ⟨-, h⟩
    · show effective v ∈ old020
      unfold effective
      rcases h with rfl | h
      · decide
      · rw [if_neg (old_ne_nil _ h)]; exact h
    · exact absurd rfl (old_ne_mid _ hw _ h)
    · exact absurd rfl (old_ne_new _ hw _ h)

/-- C60: a result that survives being stored in the current result type comes back from it as it was, stating the version asked for. -/
theorem c60_up_down (r : Result) (hw : WellTyped r) (hs : SurvivesUpgrade r) (v : Bytes) (hf : SameFormat v r.version) :
    ∃ x, newResultFromResult100 r = .ok x ∧ x.cniVersion = b!"1.1.0" ∧
      (Result.v100 x).getAsVersion v = .ok (restated r (effective v)) := by
  have key : ∃ m, convert r b!"1.1.0" = .ok m ∧ convert m (effective v) = .ok (restated r (effective v)) := by
    cases r with
    | v100 r =>
      have hv : v ∈ new100 := by
        rcases hf with ⟨-, h⟩ | ⟨-, h⟩ | ⟨h, -⟩
        · exact absurd rfl (old_ne_new _ h _ hw)
        · exact absurd rfl (mid_ne_new _ h _ hw)
        · exact h
      have he : effective v = v := by unfold effective; rw [if_neg (new_ne_nil _ hv)]
      rw [he]
      exact ⟨_, c28_same_format_100 r hw (by decide), c28_same_format_100 { r with cniVersion := b!"1.1.0" } (show b!"1.1.0" ∈ new100 by decide) hv⟩
    | v040 r =>
      have hv : v ∈ mid040 := by
        rcases hf with ⟨-, h⟩ | ⟨h, -⟩ | ⟨-, h⟩
        · exact absurd rfl (old_ne_mid _ h _ hw)
        · exact h
        · exact absurd rfl (mid_ne_new _ hw _ h)
      have he : effective v = v := by unfold effective; rw [if_neg (mid_ne_nil _ hv)]
      rw [he]
      exact c28_up_down_lossless r hw hs.1 hs.2 (by decide) hv
    | v020 r =>
      have hv : effective v ∈ old020 := by
        rcases hf with ⟨h, -⟩ | ⟨-, h⟩ | ⟨-, h⟩
        · unfold effective
          rcases h with rfl | h
          · decide
          · rw [if_neg (old_ne_nil _ h)]; exact h
        · exact absurd rfl (old_ne_mid _ hw _ h)
        · exact absurd rfl (old_ne_new _ hw _ h)
      obtain ⟨hne, h4, h6⟩ := hs
      obtain ⟨m, h1, -, h2⟩ := c30_via_100 r hw hne (fun i hi => (h4 i hi).1) (fun i hi => (h6 i hi).1) (w := b!"1.1.0") (by decide) hv
      refine ⟨m, h1, h2.trans ?_⟩
      rw [c30_routes_kept r
        (fun i hi rt hrt => ⟨((h4 i hi).2 rt hrt).1, fun _ => rfl, fun _ => ((h4 i hi).2 rt hrt).2⟩)
        (fun i hi rt hrt => ⟨((h6 i hi).2 rt hrt).1, fun h => absurd h ((h6 i hi).2 rt hrt).2, fun h => Bool.noConfusion h⟩)]
      rfl
  obtain ⟨m, h1, h2⟩ := key
  obtain ⟨h3, h4⟩ := c27_reports_requested h1
  rw [if_neg (by decide)] at h3
  obtain ⟨x, rfl⟩ := wellTyped_110 (h4 hw) h3
  refine ⟨x, by simp only [newResultFromResult100, h1], h3, ?_⟩
  rw [c27_getAsVersion, if_pos (by rw [h3]; decide), convert_eff, h2]

/-! ### the plugin's view of its configuration -/

theorem readAs_prevNone {b : Bytes} {c : PluginConf} (h : ReadAs b c) : c.prevResult = none := by
  obtain ⟨j, -, h⟩ := h
  simp only [decPluginConf, Option.bind_eq_bind, Option.bind_eq_some_iff, Option.some.injEq] at h
  obtain ⟨_, _, _, _, _, _, _, _, _, _, _, _, _, _, _, _, _, _, rfl⟩ := h
  rfl

theorem readAs_unique {b : Bytes} {c c' : PluginConf} (h : ReadAs b c) (h' : ReadAs b c') : c = c' := by
  obtain ⟨j, h1, h2⟩ := h
  obtain ⟨j', h3, h4⟩ := h'
  rw [h1] at h3; cases h3
  rw [h2] at h4; exact Option.some.inj h4

theorem debugParse_readAs {b : Bytes} {d : DebugConf} (h : debugParseConf b = some d) : ReadAs b d.conf := by
  unfold debugParseConf at h
  split at h
  · cases h
  · cases h
  · rename_i j _ hj
    refine ⟨j, hj, ?_⟩
    simp only [decDebugConf, Option.bind_eq_bind, Option.bind_eq_some_iff, Option.some.injEq] at h
    obtain ⟨c, hc, _, _, _, _, _, _, _, _, _, _, rfl⟩ := h
    exact hc

theorem decHooks_toAny {i : List (List Bytes)} {v w : Json} (h : v.toAny = some w) :
    decList (decStrList []) i w = decList (decStrList []) i v := by
  have elems : ∀ l l' : List Json, Json.toAnyList l = some l' → l'.mapM (decStrList []) = l.mapM (decStrList []) := by
    intro l
    induction l with
    | nil => intro l' h; simp [Json.toAnyList] at h; subst h; rfl
    | cons v l ih =>
      intro l' h
      simp only [Json.toAnyList] at h
      split at h
      · rename_i w l'' h1 h2
        simp only [Option.some.injEq] at h
        subst h
        simp only [List.mapM_cons, ih _ h2, decStrList_toAny h1]
      · cases h
  cases v <;> simp [Json.toAny] at h
  case arr l => obtain ⟨l', h1, rfl⟩ := h; simp only [decList]; exact elems _ _ h1
  all_goals first
    | subst h; rfl
    | (obtain ⟨a, _, rfl⟩ := h; rfl)

theorem plainly_append {a b : List Bytes} {ms : List (Bytes × Json)} (ha : Plainly a ms) (hb : Plainly b ms) : Plainly (a ++ b) ms :=
  ⟨ha.once, fun m hm f hf => (List.mem_append.1 hf).elim (ha.spelled m hm f) (hb.spelled m hm f)⟩

/-- The debug plugin finds its own fields in its standard input as they are in the list. -/
theorem debug_sees {orig name ver stdin : Bytes} {doc : Option Json} {args : GoMap Json} (h : StdinSpec orig name ver doc args stdin)
    {d : DebugConf} (hd : DebugConfOf orig d) {c : PluginConf} (hc : ReadAs stdin c) : debugParseConf stdin = some { d with conf := c } := by
  obtain ⟨ms, M, rc, h1, h2, hn, -, -, hname, hver, hpr, hnp, -, hr1, hr2, hk⟩ := h
  have hpl : Plainly debugFields ms := plainly_append (hd.plain ms h1).1 (hd.own ms h1)
  have hP : Plainly debugFields M := plainly_kept hpl hn hk (by decide)
  have says : ∀ k, k ∉ [b!"name", b!"cniVersion", b!"prevResult", b!"runtimeConfig"] → Says ms M k :=
    fun k h => says_of_keeps (hk k h) hpl.once hn
  have hr := hd.reads
  obtain ⟨j, hj, hc⟩ := hc
  rw [h2] at hj; cases hj
  simp only [debugParseConf, h1, h2, decDebugConf, structMembers, Option.bind_eq_bind, Option.bind_some, Option.bind_eq_some_iff,
    Option.some.injEq] at hr ⊢
  obtain ⟨c0, hc0, o, ho, a, ha, dl, hdl, k, hck, rfl⟩ := hr
  refine ⟨c, hc, o, ?_, a, ?_, dl, ?_, k, ?_, rfl⟩
  · rw [← ho]; exact decField_same hpl hP (by decide) (says _ (by decide)) (fun _ _ _ h => decStr_toAny h)
  · rw [← ha]; exact decField_same hpl hP (by decide) (says _ (by decide)) (fun _ _ _ h => decHooks_toAny h)
  · rw [← hdl]; exact decField_same hpl hP (by decide) (says _ (by decide)) (fun _ _ _ h => decHooks_toAny h)
  · rw [← hck]; exact decField_same hpl hP (by decide) (says _ (by decide)) (fun _ _ _ h => decHooks_toAny h)

/-! ### hooks -/

theorem runHooks_fst (l : List (List Bytes)) : (runHooks l).1 = l.takeWhile (· ≠ []) := by
  induction l with
  | nil => rfl
  | cons h l ih => cases h <;> simp [runHooks, ih]

theorem runHooks_snd (l : List (List Bytes)) : (runHooks l).2 = true ↔ [] ∉ l := by
  induction l with
  | nil => simp [runHooks]
  | cons h l ih => cases h <;> simp [runHooks, ih]

/-- C60: what the plugin does besides printing: it appends the report of the call to the file in its configuration, if it can be
opened, and runs the hooks for the command, in order, up to an empty one, if the namespace can be entered. -/
theorem c60_effects (w : DebugWorld) (v : Callback) (hv : OfAttachment v) (a : CmdArgs) (d : DebugConf) (hd : debugParseConf a.stdinData = some d)
    (c : CNIConfig) (rt : RuntimeConf) (stdin : Bytes) (hs : SeesAttachment c rt stdin a) :
    (debugCall w v a).written = (if d.cniOutput ≠ [] ∧ w.opens d.cniOutput = true then
      [(d.cniOutput, debugReport (debugTitle v) c rt stdin)] else []) ∧
    (debugCall w v a).hooks = (if w.enters rt.netNS = true then (hooksFor d v).takeWhile (· ≠ []) else []) ∧
    (w.enters rt.netNS = true → [] ∈ hooksFor d v → (debugCall w v a).out = .panic) := by
  obtain ⟨h1, h2, h3, h4, h5, h6⟩ := hs
  have he : ∀ title, title ++ b!"\n" ++ outputCmdArgs a = debugReport title c rt stdin := by
    intro title
    simp only [outputCmdArgs, debugReport, h1, h2, h3, h4, h5, h6, List.append_assoc, List.cons_append, List.nil_append]
  have key : ∀ title hooks res, (debugRun w title a d hooks res).written = (if d.cniOutput ≠ [] ∧ w.opens d.cniOutput = true then
      [(d.cniOutput, debugReport title c rt stdin)] else []) ∧
      (debugRun w title a d hooks res).hooks = (if w.enters rt.netNS = true then hooks.takeWhile (· ≠ []) else []) ∧
      (w.enters rt.netNS = true → [] ∈ hooks → (debugRun w title a d hooks res).out = .panic) := by
    intro title hooks res
    refine ⟨by simp only [debugRun, he], ?_, ?_⟩
    · simp only [debugRun, executeHooks, h2]
      split
      · exact runHooks_fst hooks
      · rfl
    · intro hen hmem
      have : ¬ (runHooks hooks).2 = true := fun h => (runHooks_snd hooks).1 h hmem
      simp only [debugRun, executeHooks, h2, hen, if_true, if_neg this]
  rcases hv with rfl | rfl | rfl
  · simp only [debugCall, debugAdd, hd]; exact key _ _ _
  · simp only [debugCall, debugCheck, hd]; exact key _ _ _
  · simp only [debugCall, debugDel, hd]; exact key _ _ _

/-! ### printing -/

/-- An empty result cannot be printed in version 0.1.0 or 0.2.0. -/
theorem printEmpty_old {v : Bytes} (hv : effective v ∈ old020) :
    printResult (.v100 {}) v = .err (.text b!"cannot convert: no valid IP addresses") := by
  have : (Result.v100 {}).getAsVersion v = .err (.text b!"cannot convert: no valid IP addresses") := by
    rw [c27_getAsVersion, if_neg (show ¬ (Result.v100 {}).version ≠ [] by decide)]
    show convert (.v100 { ({} : R100) with cniVersion := b!"1.1.0" }) v = _
    rw [convert_eff, c29_from_100 _ (show b!"1.1.0" ∈ new100 by decide) (by simp [NoNull]) hv]
    rfl
  unfold printResult
  rw [this]
  rfl

/-- In the other versions it can. -/
theorem printEmpty_new {v : Bytes} (hv : v ∈ mid040 ∨ v ∈ new100) : printResult (.v100 {}) v = .ok (emptyPrinted v) := by
  rcases hv with hv | hv
  all_goals
    simp only [mid040, new100, List.mem_cons, List.not_mem_nil, or_false] at hv
  · rcases hv with rfl | rfl | rfl <;> rfl
  · rcases hv with rfl | rfl <;> rfl

/-- A plugin process that does not succeed is an error for the runtime. -/
theorem answered_fails {quote : Bytes → Bytes} {e : ExecEv} {t : SkelProc} {funcs : CNIFuncs} {vi : PluginInfo} {about : Bytes}
    {ns : Namespaces} {printed : Callback × CmdArgs → Bytes} {stderr : Bytes}
    (ha : AnsweredBy quote e (t.mainFuncs funcs vi about ns printed) stderr) (h : (t.pluginMain funcs vi about ns).out ≠ .success) :
    ∃ g, e.resp = .error g := by
  have hst : (t.mainFuncs funcs vi about ns printed).status = 1 ∨ (t.mainFuncs funcs vi about ns printed).status = 2 := by
    unfold SkelProc.mainFuncs
    simp only
    split
    · contradiction
    · exact .inl rfl
    · exact .inr rfl
  unfold AnsweredBy at ha
  generalize t.mainFuncs funcs vi about ns printed = x at ha hst
  have : ∃ ce, rawExec quote (fun _ => x.runResult stderr) = .error ce := by
    unfold rawExec rawExecLoop
    obtain ⟨so, st⟩ := x
    simp only at hst
    rcases hst with rfl | rfl
    · simp only [PluginExit.runResult]
      rw [if_neg (by decide)]
      simp only
      rw [if_neg (by decide)]
      exact ⟨_, rfl⟩
    · simp only [PluginExit.runResult]
      rw [if_neg (by decide)]
      simp only
      rw [if_neg (by decide)]
      exact ⟨_, rfl⟩
  obtain ⟨ce, hce⟩ := this
  rw [hce] at ha
  exact ⟨_, ha⟩

theorem all_read : ∀ s ∈ debugInfo.supported, ∃ p, Reads s p := by
  intro s hs
  simp only [debugInfo, allVersions, List.mem_cons, List.not_mem_nil, or_false] at hs
  rcases hs with rfl | rfl | rfl | rfl | rfl | rfl | rfl
  all_goals exact ⟨_, (parseVersion_iff _ _).1 rfl⟩

theorem sanitize_spec {v w : Bytes} (h : SameFormat v w) : sanitize v = v ∧ effective v ∈ allVersions := by
  have : v = [] ∨ v ∈ specVersions := by
    rcases h with ⟨h | h, -⟩ | ⟨h, -⟩ | ⟨h, -⟩
    · exact .inl h
    all_goals
      right
      simp only [old020, mid040, new100, List.mem_cons, List.not_mem_nil, or_false] at h
    · rcases h with rfl | rfl <;> decide
    · rcases h with rfl | rfl | rfl <;> decide
    · rcases h with rfl | rfl <;> decide
  rcases this with rfl | h
  · exact ⟨by decide, by decide⟩
  · revert h
    have : ∀ v ∈ specVersions, sanitize v = v ∧ effective v ∈ allVersions := by decide
    exact this v

theorem plainVersion_of {b : Bytes} (h : PlainConf b) : PlainVersion b :=
  fun ms hms m hm hk => (h ms hms).1.spelled m hm b!"cniVersion" (by simp) hk

theorem takeWhile_of_forall {α : Type} {p : α → Bool} {l : List α} (h : ∀ a ∈ l, p a = true) : l.takeWhile p = l := by
  induction l with
  | nil => rfl
  | cons a l ih => simp [h a (by simp), ih (fun b hb => h b (by simp [hb]))]

/-- What the plugin makes of a previous result. -/
theorem debugGetResult_prev {c : PluginConf} {r : Result} (hn : c.prevResult = none)
    (hp : parsePrevResult c = ({ c with rawPrev := none, prevResult := some r }, none)) :
    debugGetResult c = match newResultFromResult100 r with
      | .ok x => .ok x
      | _ => .panic := by
  unfold debugGetResult
  cases hr : c.rawPrev with
  | none =>
    simp only [parsePrevResult, hr, Prod.mk.injEq, and_true] at hp
    rw [hp] at hn
    cases hn
  | some m =>
    simp only [hp]
    cases newResultFromResult100 r <;> rfl

theorem debugGetResult_bad {c : PluginConf} {e : GoErr}
    (hp : parsePrevResult c = ({ c with rawPrev := none, prevResult := none }, some e)) : debugGetResult c = .panic := by
  unfold debugGetResult
  cases hr : c.rawPrev with
  | none => simp [parsePrevResult, hr] at hp
  | some m => simp only [hp]

/-- The debug plugin, told to do `v`, is called and answers what its callback printed, if that is not an error. -/
theorem debug_called {quote : Bytes → Bytes} {w : DebugWorld} {e : ExecEv} {t : SkelProc} {about : Bytes} {ns : Namespaces} {stderr : Bytes}
    (ha : DebugAnswers quote w e t about ns stderr) (hap : ApartFrom ns t) {v : Callback} (hv : OfAttachment v) {a : CmdArgs}
    (hc : (t.pluginMain (debugFuncs w) debugInfo about ns).calls = [(v, a)]) :
    (∀ out, (debugCall w v a).out = .ok out → e.resp = .ok out) ∧
    ((∀ out, (debugCall w v a).out ≠ .ok out) → ∃ g, e.resp = .error g) := by
  obtain ⟨-, -, b, hb, hab, hval⟩ := c35_only_valid t (debugFuncs w) debugInfo about ns v a (by rw [hc]; simp)
  have hcb : ∃ f, callbackOf (debugFuncs w) v = some f ∧ f a = (debugCall w v a).returns := by
    rcases hv with rfl | rfl | rfl <;> exact ⟨_, rfl, rfl⟩
  obtain ⟨f, hf, hfa⟩ := hcb
  constructor
  · intro out ho
    have hok : f (requestArgs t.getenv b) = .ok () := by rw [← hab, hfa, DebugRun.returns, ho]; rfl
    have hs := c38_success t (debugFuncs w) debugInfo about ns v b f hb hval (fun _ => all_read) hf hok (.inr hap)
    have := c53_skel_answer quote e t (debugFuncs w) debugInfo about ns _ stderr ha v a hc (by rw [hs])
    rw [this]
    simp only [DebugRun.printed, ho]
    rfl
  · intro hno
    apply answered_fails ha
    rw [pluginMain_valid hb hval (fun _ => all_read), hf]
    simp only [calledRun, ← hab, hfa, DebugRun.returns]
    cases ho : (debugCall w v a).out with
    | ok out => exact absurd ho (hno out)
    | err g =>
      show afterCall ns a v (callbackOut (.err g)) ≠ .success
      simp only [callbackOut]
      cases g.asCni <;> simp [afterCall]
    | panic => show afterCall ns a v .crash ≠ .success; simp [afterCall]

/-- C60: the debug plugin in a chain is transparent. If it is executed in the ADD of a list after a plugin that returned `r`, it returns
`r`, whatever its hooks and its file do (provided that `r` is in the format of the list's version and survives being stored in the
current result type). Before that it has appended the report of the call to its file and run its hooks. -/
theorem c60_add_list (c : CNIConfig) (list : NetConfList) (rt : RuntimeConf) (hrt : rt.OK) (hns : rt.netNS ≠ [])
    (hpath : joinWith b!":" c.path ≠ []) (fs fs' : FS) (tr : Trace) (o : Out (Option Result))
    (h : Runs flt (c.addNetworkList list rt) fs tr fs' o) (enum : MapEnum) (hen : IsMapOrder enum) (environ : List Bytes)
    (i : Nat) (e' e : ExecEv) (r : Result) (hi' : tr.execs[i]? = some e') (hr : Returned e' r) (hi : tr.execs[i + 1]? = some e)
    (p : PluginConfig) (hp : list.plugins[i + 1]? = some p) (d : DebugConf) (hd : DebugConfOf p.bytes d) (hread : ReadAs p.bytes p.network)
    (quote : Bytes → Bytes) (w : DebugWorld) (t : SkelProc) (ht : ProcessOf enum environ e t) (about : Bytes) (ns : Namespaces) (stderr : Bytes)
    (ha : DebugAnswers quote w e t about ns stderr) (hap : ApartFrom ns t)
    (hf : SameFormat list.cniVersion r.version) (hrep : Representable true r) (hsurv : SurvivesUpgrade r)
    (hhooks : w.enters rt.netNS = true → [] ∉ d.addHooks) :
    (∀ x, Returned e x ↔ x = restated r (effective list.cniVersion)) ∧
    ∃ a, (t.pluginMain (debugFuncs w) debugInfo about ns).calls = [(.add, a)] ∧
      (debugCall w .add a).written = (if d.cniOutput ≠ [] ∧ w.opens d.cniOutput = true then
        [(d.cniOutput, debugReport b!"CmdAdd" c rt e.stdin)] else []) ∧
      (debugCall w .add a).hooks = if w.enters rt.netNS = true then d.addHooks else [] := by
  obtain ⟨hsan, hall⟩ := sanitize_spec hf
  obtain ⟨rs, hch, -, -, hval, -⟩ := addNetworkList_runs hrt h
  obtain ⟨p', hp', hin⟩ := hch.invoked (i + 1) e hi
  rw [hp] at hp'
  cases hp'
  obtain ⟨p', hp', hsees⟩ := c54_add_list c list rt hrt fs fs' tr o h (i + 1) e hi
  rw [hp] at hp'
  cases hp'
  obtain ⟨p', hp', hacc⟩ := c39_add_list c list rt hrt hns hpath fs fs' tr o h enum hen environ (i + 1) e hi t ht
  rw [hp] at hp'
  cases hp'
  obtain ⟨cf, hcf, hceq, -, hprev⟩ := (hsees hd.plain hread).2 i e' r rfl hi' hr
  obtain ⟨doc, -, hst⟩ := hin.stdin
  have hparse := debug_sees hst hd hcf
  have hver : cf.cniVersion = list.cniVersion := by rw [hceq]; exact hsan
  have hw : WellTyped r := by
    obtain ⟨out, h1, h2⟩ := hr
    exact (c33_result _ _ _ h2).1
  have hpr := (hprev r rfl).1 (by rw [hsan]; exact hf) hrep
  obtain ⟨x, hx, hx110, hxv⟩ := c60_up_down r hw hsurv list.cniVersion hf
  have hget : debugGetResult cf = .ok x := by rw [debugGetResult_prev (readAs_prevNone hcf) hpr, hx]
  -- the call
  obtain ⟨v, hcv, hveq, hpass⟩ := hacc.version
  have hv := hveq (plainVersion_of hd.plain)
  rw [hsan] at hv
  have hcall := (hpass (by intro u hu; cases hu)).called (debugFuncs w) debugInfo about ns _ rfl all_read (by rw [hv]; exact hall)
  have hse := hacc.sees
  obtain ⟨hwr, hhk, -⟩ := c60_effects w .add (.inl rfl) (requestArgs t.getenv e.stdin) _ hparse c rt e.stdin hse
  -- what it prints
  have hnet : (requestArgs t.getenv e.stdin).netns = rt.netNS := hse.netns
  have hout : (debugCall w .add (requestArgs t.getenv e.stdin)).out = printResult (.v100 x) list.cniVersion := by
    have hp1 : debugParseConf (requestArgs t.getenv e.stdin).stdinData = some { d with conf := cf } := hparse
    have h2 : (executeHooks w rt.netNS d.addHooks).2 = true := by
      unfold executeHooks
      split
      · rename_i hen'; exact (runHooks_snd _).2 (hhooks hen')
      · rfl
    simp only [debugCall, debugAdd, hp1, debugRun, hnet, h2, if_true, hget, Out.bind_ok, hver]
  have hjson : ∃ out, printResult (.v100 x) list.cniVersion = .ok out := by
    have hrep' := (representable_withVersion (v := effective list.cniVersion)).2 hrep
    have h4 := wellTyped_withVersion hw hf
    obtain ⟨j, hj, -⟩ := Result.json_reads h4 hrep' (fun _ => rfl)
    refine ⟨j.printIndent 0, ?_⟩
    unfold printResult
    rw [hxv]
    simp [Result.printTo, hj]
  obtain ⟨out, hout'⟩ := hjson
  refine ⟨?_, _, hcall, hwr, ?_⟩
  · have hresp := (debug_called ha hap (.inl rfl) hcall).1 out (hout.trans hout')
    have hcd : decodeVersion e.stdin = .ok v := (confVersion_iff _ _).2 hcv
    obtain ⟨r', hr', hret⟩ := c53_returned e (.v100 x) (.inr (by show x.cniVersion ∈ new100; rw [hx110]; decide)) list.cniVersion out hout' hresp v hcd (by
      intro r' hr'
      rw [hxv] at hr'
      cases hr'
      rw [std_id ((representable_withVersion).2 hrep)]
      exact (representable_withVersion).2 hrep)
    rw [hxv] at hr'
    cases hr'
    rw [std_id ((representable_withVersion).2 hrep)] at hret
    exact hret
  · rw [hhk]
    split
    · rename_i hen'
      refine takeWhile_of_forall (l := d.addHooks) fun h hh => ?_
      have := hhooks hen'
      simp only [ne_eq, decide_not, Bool.not_eq_eq_eq_not, Bool.not_true, decide_eq_false_iff_not]
      intro e; subst e; exact this hh
    · rfl

/-- C60, a finding: if the previous result is not in the format of the list's version, which the runtime lets through, the plugin
crashes and ADD fails. -/
theorem c60_add_other_format (c : CNIConfig) (list : NetConfList) (rt : RuntimeConf) (hrt : rt.OK) (hns : rt.netNS ≠ [])
    (hpath : joinWith b!":" c.path ≠ []) (fs fs' : FS) (tr : Trace) (o : Out (Option Result))
    (h : Runs flt (c.addNetworkList list rt) fs tr fs' o) (enum : MapEnum) (hen : IsMapOrder enum) (environ : List Bytes)
    (i : Nat) (e' e : ExecEv) (r : Result) (hi' : tr.execs[i]? = some e') (hr : Returned e' r) (hi : tr.execs[i + 1]? = some e)
    (p : PluginConfig) (hp : list.plugins[i + 1]? = some p) (d : DebugConf) (hd : DebugConfOf p.bytes d) (hread : ReadAs p.bytes p.network)
    (quote : Bytes → Bytes) (w : DebugWorld) (t : SkelProc) (ht : ProcessOf enum environ e t) (about : Bytes) (ns : Namespaces) (stderr : Bytes)
    (ha : DebugAnswers quote w e t about ns stderr) (hap : ApartFrom ns t)
    (hv : effective list.cniVersion ∈ specVersions) (hf : ¬ SameFormat list.cniVersion r.version) :
    (∃ g, e.resp = .error g) ∧ ∃ g, o = .err g := by
  have hsan : sanitize list.cniVersion = list.cniVersion := by
    unfold effective at hv
    split at hv
    · rename_i h0; rw [h0]; decide
    · revert hv
      have : ∀ v ∈ specVersions, sanitize v = v := by decide
      exact this _
  have hall : effective list.cniVersion ∈ allVersions := by
    revert hv
    have : ∀ v ∈ specVersions, v ∈ allVersions := by decide
    exact this _
  obtain ⟨rs, hch, -, hfail, -, -⟩ := addNetworkList_runs hrt h
  obtain ⟨p', hp', hin⟩ := hch.invoked (i + 1) e hi
  rw [hp] at hp'
  cases hp'
  obtain ⟨p', hp', hsees⟩ := c54_add_list c list rt hrt fs fs' tr o h (i + 1) e hi
  rw [hp] at hp'
  cases hp'
  obtain ⟨p', hp', hacc⟩ := c39_add_list c list rt hrt hns hpath fs fs' tr o h enum hen environ (i + 1) e hi t ht
  rw [hp] at hp'
  cases hp'
  obtain ⟨cf, hcf, hceq, -, hprev⟩ := (hsees hd.plain hread).2 i e' r rfl hi' hr
  obtain ⟨doc, -, hst⟩ := hin.stdin
  have hparse := debug_sees hst hd hcf
  obtain ⟨ge, hpr⟩ := (hprev r rfl).2 (by rw [hsan]; exact hf)
  have hget := debugGetResult_bad hpr
  obtain ⟨v, hcv, hveq, hpass⟩ := hacc.version
  have hv := hveq (plainVersion_of hd.plain)
  rw [hsan] at hv
  have hcall := (hpass (by intro u hu; cases hu)).called (debugFuncs w) debugInfo about ns _ rfl all_read (by rw [hv]; exact hall)
  have herr : ∃ g, e.resp = .error g := by
    refine (debug_called ha hap (.inl rfl) hcall).2 ?_
    have hp1 : debugParseConf (requestArgs t.getenv e.stdin).stdinData = some { d with conf := cf } := hparse
    intro out hout
    simp only [debugCall, debugAdd, hp1, debugRun, hget] at hout
    split at hout
    · cases hout
    · cases hout
  refine ⟨herr, ?_⟩
  obtain ⟨g, hg⟩ := herr
  obtain ⟨pre, ho⟩ := hfail e g (addChain_failed hch (List.mem_of_getElem? hi) hg) hg
  exact ⟨_, ho⟩

/-- C60, a finding: DEL of a list of version 0.1.0 or 0.2.0 (or without a version) that has the debug plugin in it never succeeds once
it gets to that plugin: the plugin prints an empty result, and an empty result cannot be converted to those versions. -/
theorem c60_del_old (c : CNIConfig) (list : NetConfList) (rt : RuntimeConf) (hrt : rt.OK) (fs fs' : FS) (tr : Trace) (o : Out Unit)
    (h : Runs flt (c.delNetworkList list rt) fs tr fs' o) (enum : MapEnum) (hen : IsMapOrder enum) (environ : List Bytes)
    (hold : effective list.cniVersion ∈ old020) (i : Nat) (e : ExecEv) (hi : tr.execs[i]? = some e)
    (p : PluginConfig) (hp : list.plugins.reverse[i]? = some p) (hpl : PlainConf p.bytes)
    (quote : Bytes → Bytes) (w : DebugWorld) (t : SkelProc) (ht : ProcessOf enum environ e t) (about : Bytes) (ns : Namespaces) (stderr : Bytes)
    (ha : DebugAnswers quote w e t about ns stderr) :
    (∃ g, e.resp = .error g) ∧ o ≠ .ok () := by
  have hsan : sanitize list.cniVersion = list.cniVersion := by
    unfold effective at hold
    split at hold
    · rename_i h0; rw [h0]; decide
    · revert hold
      have : ∀ v ∈ old020, sanitize v = v := by decide
      exact this _
  have hread : ∃ q, Reads list.cniVersion q := by
    unfold effective at hold
    split at hold
    · rename_i h0; rw [h0]; exact ⟨_, .empty⟩
    · simp only [old020, List.mem_cons, List.not_mem_nil, or_false] at hold
      rcases hold with h0 | h0 <;> rw [h0] <;> exact ⟨_, (parseVersion_iff _ _).1 rfl⟩
  obtain ⟨⟨prev, hsw⟩, hok, -⟩ := c14_del_list c list rt hrt fs fs' tr o h hread
  obtain ⟨p', hp', hin⟩ := hsw.invoked i e hi
  rw [hp] at hp'
  cases hp'
  have herr : ∃ g, e.resp = .error g := by
    apply answered_fails ha
    intro hsucc
    have hcmd := (process_env hen ht hin.args).1
    by_cases he : EnvOK t.getenv .del
    · rw [pluginMain_good he, ht.stdin] at hsucc
      simp only at hsucc
      split at hsucc
      · cases hsucc
      rcases runVerb_cases ns (requestArgs t.getenv e.stdin) debugInfo (debugFuncs w) .del with ⟨_, _, _, _, hr⟩ | ⟨e2, he2, -⟩
      · rw [hr] at hsucc
        have hcf : ∀ d, debugParseConf e.stdin = some d → d.conf.cniVersion = list.cniVersion := by
          intro d hd
          obtain ⟨doc, -, ms, M, rc, h1, h2, hn, -, ⟨c2, hc2⟩, hname, hver, hpr, hnp, -, hr1, hr2, hk⟩ := hin.stdin
          have hpl' := (hpl ms h1).1
          have hP : Plainly pluginConfFields M := plainly_kept hpl' hn hk (by decide)
          obtain ⟨j, hj, hdc⟩ := debugParse_readAs hd
          rw [h2] at hj; cases hj
          simp only [decPluginConf, structMembers, Option.bind_eq_bind, Option.bind_some, Option.bind_eq_some_iff, Option.some.injEq] at hdc
          obtain ⟨v, hv, _, _, _, _, _, _, _, _, _, _, _, _, _, _, heq⟩ := hdc
          rw [getField_plain hP (by decide), GoMap.get?_of_nodup hP.once hver] at hv
          simp only [Option.toList_some, decAll_one, decStr, Option.some.injEq] at hv
          rw [← heq, ← hv]
          exact hsan
        have hne : ∀ out, (debugDel w (requestArgs t.getenv e.stdin)).out ≠ .ok out := by
          intro out hout
          unfold debugDel at hout
          split at hout
          · cases hout
          · rename_i d hd
            simp only [debugRun] at hout
            split at hout
            · rw [Out.bind_ok, hcf d hd, printEmpty_old hold] at hout
              cases hout
            · cases hout
        simp only [callbackOf, debugFuncs, calledRun, DebugRun.returns] at hsucc
        cases ho : (debugDel w (requestArgs t.getenv e.stdin)).out with
        | ok out => exact hne out ho
        | err g =>
          rw [ho] at hsucc
          simp only [Out.bind_err, callbackOut] at hsucc
          cases hg : g.asCni <;> simp [hg, afterCall] at hsucc
        | panic =>
          rw [ho] at hsucc
          simp [callbackOut, afterCall] at hsucc
      · rw [he2] at hsucc
        cases hsucc
    · obtain ⟨e2, he2, -⟩ := pluginMain_bad (v := .del) hcmd he (debugFuncs w) debugInfo about ns
      rw [he2] at hsucc
      cases hsucc
  refine ⟨herr, ?_⟩
  intro hoo
  obtain ⟨g, hg⟩ := herr
  obtain ⟨out, ho⟩ := (hok hoo).2 e (List.mem_of_getElem? hi)
  rw [hg] at ho
  cases ho

/-- C60: DEL and CHECK, and ADD without a previous result, print an empty result of the configured version, and succeed if the hooks
are not empty. -/
theorem c60_empty (w : DebugWorld) (v : Callback) (hv : OfAttachment v) (a : CmdArgs) (d : DebugConf)
    (hd : debugParseConf a.stdinData = some d) (hprev : v = .add → d.conf.rawPrev = none)
    (hver : d.conf.cniVersion ∈ mid040 ∨ d.conf.cniVersion ∈ new100)
    (hhooks : w.enters a.netns = true → [] ∉ hooksFor d v) :
    (debugCall w v a).out = .ok (emptyPrinted d.conf.cniVersion) := by
  have h2 : (executeHooks w a.netns (hooksFor d v)).2 = true := by
    unfold executeHooks
    split
    · rename_i hen'; exact (runHooks_snd _).2 (hhooks hen')
    · rfl
  have hout := printEmpty_new hver
  rcases hv with rfl | rfl | rfl
  · simp only [hooksFor] at h2
    simp only [debugCall, debugAdd, hd, debugRun, h2, if_true, debugGetResult, hprev rfl, Out.bind_ok, hout]
  · simp only [hooksFor] at h2
    simp only [debugCall, debugDel, debugCheck, hd, debugRun, h2, if_true, Out.bind_ok, hout]
  · simp only [hooksFor] at h2
    simp only [debugCall, debugDel, debugCheck, hd, debugRun, h2, if_true, Out.bind_ok, hout]

/-- C60: in versions 0.1.0 and 0.2.0 the same calls fail, because an empty result cannot be said in those versions: so the debug plugin
cannot be the first of such a list. -/
theorem c60_empty_old (w : DebugWorld) (v : Callback) (hv : OfAttachment v) (a : CmdArgs) (d : DebugConf)
    (hd : debugParseConf a.stdinData = some d) (hprev : v = .add → d.conf.rawPrev = none)
    (hver : effective d.conf.cniVersion ∈ old020) (hhooks : w.enters a.netns = true → [] ∉ hooksFor d v) :
    (debugCall w v a).out = .err (.text b!"cannot convert: no valid IP addresses") := by
  have h2 : (executeHooks w a.netns (hooksFor d v)).2 = true := by
    unfold executeHooks
    split
    · rename_i hen'; exact (runHooks_snd _).2 (hhooks hen')
    · rfl
  have hout := printEmpty_old hver
  rcases hv with rfl | rfl | rfl
  · simp only [hooksFor] at h2
    simp only [debugCall, debugAdd, hd, debugRun, h2, if_true, debugGetResult, hprev rfl, Out.bind_ok, hout]
  · simp only [hooksFor] at h2
    simp only [debugCall, debugDel, debugCheck, hd, debugRun, h2, if_true, Out.bind_ok, hout]
  · simp only [hooksFor] at h2
    simp only [debugCall, debugDel, debugCheck, hd, debugRun, h2, if_true, Out.bind_ok, hout]

/-- C60, a finding: a configuration that the plugin cannot decode crashes it, as does `null`. -/
theorem c60_undecodable (w : DebugWorld) (v : Callback) (hv : OfAttachment v) (a : CmdArgs) (hd : debugParseConf a.stdinData = none) :
    (debugCall w v a).out = .panic ∧ (debugCall w v a).written = [] ∧ (debugCall w v a).hooks = [] := by
  rcases hv with rfl | rfl | rfl <;> simp [debugCall, debugAdd, debugDel, debugCheck, hd]

/-! ### concrete cases -/

namespace Example

/-- The debug plugin with a file and two hooks. -/
def plugDebug : PluginConfig :=
  { network := { type := b!"debug" }
    bytes := b!"{\"type\":\"debug\",\"cniOutput\":\"/log\",\"addHooks\":[[\"ip\",\"a\"],[\"true\"]]}" }

def debugConf : DebugConf :=
  { conf := { type := b!"debug" }, cniOutput := b!"/log", addHooks := [[b!"ip", b!"a"], [b!"true"]] }

theorem debug_parse : Json.parse plugDebug.bytes = some (.obj [(b!"type", .str b!"debug"), (b!"cniOutput", .str b!"/log"),
    (b!"addHooks", .arr [.arr [.str b!"ip", .str b!"a"], .arr [.str b!"true"]])]) := by decide +kernel

/-- Its configuration meets the hypotheses. -/
theorem debug_conf : DebugConfOf plugDebug.bytes debugConf ∧ ReadAs plugDebug.bytes plugDebug.network := by
  refine ⟨⟨?_, ?_, by decide +kernel⟩, _, debug_parse, by decide +kernel⟩
  · intro ms h
    rw [debug_parse] at h
    simp only [Option.some.injEq, Json.obj.injEq] at h
    subst h
    exact ⟨⟨by decide, by decide⟩, by simp, by simp, by simp⟩
  · intro ms h
    rw [debug_parse] at h
    simp only [Option.some.injEq, Json.obj.injEq] at h
    subst h
    exact ⟨by decide, by decide⟩

def debugList : NetConfList := { list with plugins := [plugA, plugDebug] }
def world : DebugWorld := { opens := fun _ => true, enters := fun _ => true }

/-- The debug plugin as the runtime executes it. -/
def runDebug (stdin : Bytes) (a : PArgs) : Except GoErr Bytes :=
  let t := proc { path := [], stdin := stdin, args := a, resp := .ok [] }
  match rawExec id (fun _ => (t.mainFuncs (debugFuncs world) debugInfo [] nowhere fun x => (debugCall world x.1 x.2).printed).runResult []) with
  | .ok (out, _) => .ok out
  | .error ce => .error (.cni ce)

/-- Plugin `a`, then the debug plugin. -/
def withDebug (p i : Bytes) (a : PArgs) : Except GoErr Bytes := if p = b!"/bin/debug" then runDebug i a else good p i a

/-- Its answers are those of the plugin. -/
theorem runDebug_answers (p i : Bytes) (a : PArgs) (r : Except GoErr Bytes) (h : r = runDebug i a) :
    DebugAnswers id world { path := p, stdin := i, args := a, resp := r } (proc { path := p, stdin := i, args := a, resp := r }) [] nowhere [] ∧
    ApartFrom nowhere (proc { path := p, stdin := i, args := a, resp := r }) := by
  refine ⟨?_, .inr (.inl rfl)⟩
  unfold DebugAnswers AnsweredBy
  exact h

/-- What plugin `a` returns. -/
def passed1 : Result :=
  .v100 { cniVersion := b!"1.0.0", ips := [some { address := ⟨[0,0,0,0, 0,0,0,0, 0,0,0xff,0xff, 10,0,0,1], [255,255,255,0]⟩ }] }

example : SameFormat debugList.cniVersion passed1.version ∧ Representable true passed1 ∧ SurvivesUpgrade passed1 ∧
    restated passed1 (effective debugList.cniVersion) = passed1 :=
  ⟨.inr (.inr (by decide)), by decide, trivial, rfl⟩

/-- ADD of the list: both plugins return the same. -/
example : ∃ tr fs' o, Runs false (cfg.addNetworkList debugList rt) noFiles tr fs' o ∧
    (tr.execs.map fun e => e.resp.toOption.bind fun out => (resultOfOutput e.stdin out).toOption) = [some passed1, some passed1] :=
  Prog.interp_exists (find := find) (exec := withDebug) (fun tr _ _ =>
    tr.execs.map fun e => e.resp.toOption.bind fun out => (resultOfOutput e.stdin out).toOption) (by decide +kernel)

/-- What the plugin does in an execution. -/
def deeds (e : ExecEv) : List (List Bytes × List (List Bytes)) :=
  ((proc e).pluginMain (debugFuncs world) debugInfo [] nowhere).calls.map fun x =>
    ((debugCall world x.1 x.2).written.map Prod.fst, (debugCall world x.1 x.2).hooks)

/-- The debug plugin writes its report and runs its hooks. -/
example : ∃ tr fs' o, Runs false (cfg.addNetworkList debugList rt) noFiles tr fs' o ∧
    (tr.execs.map deeds)[1]? = some [([b!"/log"], [[b!"ip", b!"a"], [b!"true"]])] :=
  Prog.interp_exists (find := find) (exec := withDebug) (fun tr _ _ => (tr.execs.map deeds)[1]?) (by decide +kernel)

/-- ADD of the debug plugin without a previous result, in a version that can say so and in one that cannot. -/
example : (debugCall { opens := fun _ => false, enters := fun _ => true } .add
      { stdinData := b!"{\"cniVersion\":\"1.0.0\",\"type\":\"debug\",\"addHooks\":[[\"true\"]]}" }).out.toOption =
      some b!"{\n    \"cniVersion\": \"1.0.0\"\n}" ∧
    (debugCall { opens := fun _ => false, enters := fun _ => true } .add { stdinData := b!"{\"cniVersion\":\"0.2.0\"}" }).out.toOption = none := by
  decide +kernel

/-- DEL of the same list in version 0.2.0 fails at the debug plugin. -/
example : ∃ tr fs' o, Runs false (cfg.delNetworkList { debugList with cniVersion := b!"0.2.0" } rt) noFiles tr fs' o ∧
    (tr.execs.map (fun e => e.resp.toOption.isSome), o.toOption.isSome) = ([false], false) :=
  Prog.interp_exists (find := find) (exec := withDebug) (fun tr _ o => (tr.execs.map (fun e => e.resp.toOption.isSome), o.toOption.isSome))
    (by decide +kernel)

/-- Results that survive, of each format. -/
example : SurvivesUpgrade (.v040 sample040) ∧ SurvivesUpgrade (.v020 sample020) := by
  constructor
  · refine ⟨by simp [NoNull, sample040], ?_⟩
    intro x hx
    simp only [sample040, List.mem_cons, Option.some.injEq, List.not_mem_nil, or_false] at hx
    rcases hx with rfl | rfl <;> decide
  · refine ⟨.inl rfl, ?_, ?_⟩
    all_goals
      intro i hi
      simp only [sample020, Option.some.injEq] at hi
      subst hi
      exact ⟨by decide, by decide⟩

end Example

end Verif
