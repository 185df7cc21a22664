/- C69: delegation is transparent. -/
import Verif.Spec.Through
import Verif.Props.Chain
import Verif.Props.Delegate
import Verif.Props.Heap
import Verif.Props.Validated

namespace Verif
open Spec

variable {flt : Bool}

theorem binds_unique {e k v k' v' : Bytes} (h : Binds e k v) (h' : Binds e k' v') : k = k' ∧ v = v' := by
  obtain ⟨rfl, hk⟩ := h
  obtain ⟨he, hk'⟩ := h'
  induction k generalizing k' with
  | nil =>
    cases k' with
    | nil => simp at he; exact ⟨rfl, he⟩
    | cons x k' =>
      simp only [List.nil_append, List.cons_append, List.cons.injEq] at he
      rw [← he.1] at hk'
      simp at hk'
  | cons y k ih =>
    cases k' with
    | nil =>
      simp only [List.nil_append, List.cons_append, List.cons.injEq] at he
      rw [he.1] at hk
      simp at hk
    | cons x k' =>
      simp only [List.cons_append, List.cons.injEq] at he
      have := ih (fun h => hk (List.mem_cons_of_mem _ h)) he.2 (fun h => hk' (List.mem_cons_of_mem _ h))
      exact ⟨by rw [he.1, this.1], this.2⟩

/-- Every name is set, and then last to some value, or it is not. -/
theorem lastBinding_or_unset (env : List Bytes) (k : Bytes) : (∃ v, LastBinding env k v) ∨ Unset env k := by
  induction env with
  | nil => exact .inr (by intro e he; cases he)
  | cons e env ih =>
    rcases ih with ⟨v, a, x, b, rfl, hb, hl⟩ | hu
    · exact .inl ⟨v, e :: a, x, b, rfl, hb, hl⟩
    · by_cases h : ∃ v, Binds e k v
      · obtain ⟨v, hv⟩ := h
        exact .inl ⟨v, [], e, env, rfl, hv, hu⟩
      · refine .inr fun x hx v hv => ?_
        rcases List.mem_cons.1 hx with rfl | hx
        · exact h ⟨v, hv⟩
        · exact hu x hx v hv

/-- What is set once is bound by one entry. -/
theorem setOnce_pair {pre mid post : List Bytes} {x y k v w u : Bytes} (hs : SetOnce (pre ++ x :: mid ++ y :: post) k u)
    (hx : Binds x k v) (hy : Binds y k w) : False := by
  obtain ⟨a, e, b, he, -, hn⟩ := hs
  have hcount : ∀ (l : List Bytes), (∀ z ∈ l, ∀ v', ¬ Binds z k v') → x ∉ l ∧ y ∉ l :=
    fun l hl => ⟨fun h => hl x h v hx, fun h => hl y h w hy⟩
  have ha := hcount a fun z hz => hn z (List.mem_append_left _ hz)
  have hb := hcount b fun z hz => hn z (List.mem_append_right _ hz)
  -- the first of the two is `e`, and then the other is among `b`
  rw [List.append_assoc, List.append_eq_append_iff] at he
  rcases he with ⟨l, rfl, he⟩ | ⟨l, rfl, he⟩
  · cases l with
    | nil =>
      simp only [List.nil_append, List.cons_append, List.cons.injEq] at he
      exact hb.2 (he.2 ▸ by simp)
    | cons z l =>
      simp only [List.cons_append, List.cons.injEq] at he
      exact ha.1 (by simp [he.1])
  · cases l with
    | nil =>
      simp only [List.nil_append, List.cons_append, List.cons.injEq] at he
      exact hb.2 (he.2 ▸ by simp)
    | cons z l =>
      simp only [List.cons_append, List.cons.injEq] at he
      exact hb.1 (he.2 ▸ by simp)

theorem pair_sublist {l : List Bytes} {x y : Bytes} (h : [x, y].Sublist l) : ∃ pre mid post, l = pre ++ x :: mid ++ y :: post := by
  obtain ⟨r1, r2, rfl, hx, hy⟩ := List.cons_sublist_iff.1 h
  obtain ⟨a, b, rfl⟩ := List.append_of_mem hx
  obtain ⟨c, d, rfl⟩ := List.append_of_mem (hy.subset (List.mem_singleton.2 rfl))
  exact ⟨a, b ++ c, d, by simp⟩

/-- The environment of an execution repeats no name. -/
theorem overrides_once {base out : List Bytes} {over : List (Bytes × Bytes)} (h : Overrides base over out) : OncePerName out := by
  obtain ⟨h1, h2, h3, -⟩ := h
  refine List.pairwise_iff_forall_sublist.2 fun {x y} hs k v w hx hy => ?_
  have hset : (∃ u, SetOnce out k u) ∨ Unset out k := by
    by_cases hk : k ∈ over.map Prod.fst
    · obtain ⟨⟨k', u⟩, hm, rfl⟩ := List.mem_map.1 hk
      exact .inl ⟨u, h1 _ _ hm⟩
    · rcases lastBinding_or_unset base k with ⟨u, hu⟩ | hu
      · exact .inl ⟨u, h2 k u hk hu⟩
      · exact .inr (h3 k hk hu)
  rcases hset with ⟨u, hu⟩ | hu
  · obtain ⟨pre, mid, post, rfl⟩ := pair_sublist hs
    exact setOnce_pair hu hx hy
  · exact hu x (hs.subset (by simp)) v hx

theorem passable_getAsVersion {ver : Bytes} {r : Result} (h : Passable ver r) : r.getAsVersion ver = .ok r := by
  have hne : r.version ≠ [] := by rw [h.version]; unfold effective; split <;> first | decide | assumption
  rw [c27_getAsVersion, if_pos hne, convert_target]
  have : target ver = r.version := by rw [h.version]; rfl
  rw [this]
  exact convert_same r hne

/-- The delegate gets what the plugin got. -/
theorem delegate_gets {c : CNIConfig} {v : Callback} {name ver : Bytes} {rt : RuntimeConf} {orig : Bytes} {e e' : ExecEv} {t : SkelProc}
    {enum : MapEnum} (hen : IsMapOrder enum) {environ : List Bytes} (ht : ProcessOf enum environ e t) {verb : Bytes}
    (hargs : e.args = .args (attachArgs c verb rt))
    (hacc : Accepted c v name ver rt orig e t) (hcv : ConfVersion e.stdin (effective ver))
    (hmin : ∀ u, minVersion v = some u → AtLeast (effective ver) u) {plugin : Bytes} {tr : Trace}
    (hd : Delegated (e.args.env enum environ) (verbText v) plugin e.stdin tr (.ok e')) :
    GetsTheSame c rt ver v (e.args.env enum environ) e.stdin e' := by
  have honce : OncePerName (e.args.env enum environ) := by
    rw [hargs]
    exact overrides_once (c40_plugin_env hen environ _)
  have henv : EnvOK (getenv (e.args.env enum environ)) v := by rw [← ht.env]; exact hacc.env
  have hsee := hacc.sees
  rw [ht.env] at hsee
  obtain ⟨-, -, -, -, -, -, hst, -⟩ := id hd
  exact ⟨hst, hsee, fun enum' t' hen' ht' => c41_delegate_accepts _ honce v henv plugin e.stdin tr e' hd name _ hacc.name.1 hacc.name.2 hcv
    hmin enum' hen' t' ht'⟩

/-- C69: a plugin of a list that delegates its ADD to another plugin, with its configuration as it is, is transparent: the delegate gets
the same request, and what it returns is what the runtime gets: its result, or its error. -/
theorem c69_add (c : CNIConfig) (list : NetConfList) (rt : RuntimeConf) (hrt : rt.OK) (hns : rt.netNS ≠ [])
    (hpath : joinWith b!":" c.path ≠ []) (hv : effective list.cniVersion ∈ specVersions)
    (fs fs' : FS) (tr : Trace) (o : Out (Option Result)) (h : Runs flt (c.addNetworkList list rt) fs tr fs' o)
    (enum : MapEnum) (hen : IsMapOrder enum) (environ : List Bytes) (i : Nat) (e : ExecEv) (hi : tr.execs[i]? = some e)
    (p : PluginConfig) (hp : list.plugins[i]? = some p) (hplain : PlainConf p.bytes) (hread : ReadAs p.bytes p.network)
    (hraw : p.network.rawPrev = none)
    (hprev : ∀ j e0 r, i = j + 1 → tr.execs[j]? = some e0 → Returned e0 r → Passable list.cniVersion r)
    (quote : Bytes → Bytes) (x : Except GoErr Result) (hpl : PluginOf quote enum environ list.cniVersion (fun _ _ => x) e)
    (plugin : Bytes) (fd fd' : FS) (trd : Trace) (od : Out Result)
    (hd : Runs flt (delegateAdd (e.args.env enum environ) plugin e.stdin) fd trd fd' od) (hx : ReturnsAs od x)
    (e' : ExecEv) (he' : e' ∈ trd.execs) :
    GetsTheSame c rt list.cniVersion .add (e.args.env enum environ) e.stdin e' ∧
    (∀ r, Returned e' r → Passable list.cniVersion r → ∀ y, Returned e y ↔ y = r) ∧
    (∀ ce, e'.resp = .error (.cni ce) → ce.code < 2 ^ 64 → isUtf8 ce.msg = true → isUtf8 ce.details = true → e.resp = .error (.cni ce)) := by
  obtain ⟨-, y, hdel, hnf, hok⟩ := c41_add _ plugin e.stdin fd fd' trd od hd
  cases y with
  | error g =>
    obtain ⟨_, _, _, _, _, hno⟩ := hdel
    rw [hno] at he'
    cases he'
  | ok e1 =>
    have : e' = e1 := by
      obtain ⟨_, _, _, _, _, hone, _⟩ := id hdel
      rw [hone] at he'
      exact List.mem_singleton.1 he'
    subst this
    obtain ⟨hret, herr⟩ := hok e' rfl
    obtain ⟨rs, hch, -, -, -, -⟩ := addNetworkList_runs hrt h
    obtain ⟨p', hp', hin⟩ := hch.invoked i e hi
    rw [hp] at hp'
    cases hp'
    obtain ⟨doc, hdoc, hst⟩ := hin.stdin
    have hprev' : ∀ r, (if i = 0 then none else rs[i - 1]?) = some r → Passable list.cniVersion r := by
      intro r hr
      cases i with
      | zero => simp at hr
      | succ j =>
        simp only [Nat.succ_ne_zero, if_false, Nat.add_sub_cancel] at hr
        obtain ⟨e0, he0, hr0⟩ := hch.results j r hr
        exact hprev j e0 r rfl he0 hr0
    have hgets : GetsTheSame c rt list.cniVersion .add (e.args.env enum environ) e.stdin e' := by
      obtain ⟨t, _, _, _, _, _, _, ht, _⟩ := id hpl
      obtain ⟨q, hq, hacc⟩ := c39_add_list c list rt hrt hns hpath fs fs' tr o h enum hen environ i e hi t ht
      rw [hp] at hq
      cases hq
      obtain ⟨w, hcv, hweq, -⟩ := hacc.version
      have hw := hweq (plainVersion_of hplain)
      rw [(sanitize_spec (sameFormat_self hv)).1] at hw
      subst hw
      exact delegate_gets hen ht hin.args hacc hcv (by intro u hu; cases hu) hdel
    refine ⟨hgets, ?_, ?_⟩
    · intro r hr hpass
      have ho := (hret r).2 hr
      subst ho
      have hx : x = .ok r := hx
      subst hx
      have hga := passable_getAsVersion hpass
      have hproper : Proper c list rt p (fun _ _ => .ok r) := by
        refine ⟨fun _ _ _ _ _ g ce hg _ => (by cases hg), fun _ _ _ _ _ r1 hr1 => ?_⟩
        cases hr1
        refine ⟨.inr hpass.typed, (by rw [hga]; intro h; cases h), fun r' hr' => ?_⟩
        rw [hga] at hr'
        cases hr'
        rw [std_id hpass.rep]
        exact hpass.rep
      obtain ⟨conf, a, -, -, -, hans⟩ := plugin_answers hrt hns hpath h hen hv hi hp hplain hread hraw hproper hpl hdoc hst hprev'
      have := hans r r rfl hga
      rwa [std_id hpass.rep] at this
    · intro ce hce hcode hm hdt
      have ho := herr _ hce
      subst ho
      have hx : x = .error (.cni ce) := hx
      subst hx
      have hproper : Proper c list rt p (fun _ _ => .error (.cni ce)) := by
        refine ⟨fun _ _ _ _ _ g ce' hg hce' => ?_, fun _ _ _ _ _ r1 hr1 => (by cases hr1)⟩
        cases hg
        cases hce'
        exact hcode
      obtain ⟨conf, a, -, hans, -, -⟩ := plugin_answers hrt hns hpath h hen hv hi hp hplain hread hraw hproper hpl hdoc hst hprev'
      have := hans _ rfl
      rw [this]
      show Except.error (GoErr.cni { code := ce.code, msg := sanitize ce.msg, details := sanitize ce.details }) = _
      rw [sanitize_of_isUtf8 hm, sanitize_of_isUtf8 hdt]

/-- The same for a command without a result. -/
theorem quiet_through {c : CNIConfig} {v : Callback} {name ver : Bytes} {rt : RuntimeConf} {orig : Bytes} {e : ExecEv}
    {enum : MapEnum} (hen : IsMapOrder enum) {environ : List Bytes} {verb : Bytes} (hargs : e.args = .args (attachArgs c verb rt))
    (hacc : ∀ t, ProcessOf enum environ e t → Accepted c v name ver rt orig e t ∧ ConfVersion e.stdin (effective ver))
    (hmin : ∀ u, minVersion v = some u → AtLeast (effective ver) u)
    {quote : Bytes → Bytes} {x : Except GoErr Unit} (hpl : QuietPlugin quote enum environ ver v x e)
    {plugin : Bytes} {trd : Trace} {od : Out Unit} (hx : ReturnsAs od x) {y : Except GoErr ExecEv}
    (hdel : Delegated (e.args.env enum environ) (verbText v) plugin e.stdin trd y)
    (hok : ∀ e1, y = .ok e1 → (od = .ok () ↔ Succeeded e1) ∧ ∀ g, e1.resp = .error g → od = .err g)
    (e' : ExecEv) (he' : e' ∈ trd.execs) :
    GetsTheSame c rt ver v (e.args.env enum environ) e.stdin e' ∧ (Succeeded e' → Succeeded e) ∧
    (∀ ce, e'.resp = .error (.cni ce) → ce.code < 2 ^ 64 → isUtf8 ce.msg = true → isUtf8 ce.details = true → e.resp = .error (.cni ce)) := by
  cases y with
  | error g =>
    obtain ⟨_, _, _, _, _, hno⟩ := hdel
    rw [hno] at he'
    cases he'
  | ok e1 =>
    have : e' = e1 := by
      obtain ⟨_, _, _, _, _, hone, _⟩ := id hdel
      rw [hone] at he'
      exact List.mem_singleton.1 he'
    subst this
    obtain ⟨hret, herr⟩ := hok e' rfl
    obtain ⟨t, funcs, vi, about, ns, printed, stderr, f, ht, hf, hfx, hprt, hsup, hread, hap, hans⟩ := hpl
    obtain ⟨hac, hcv⟩ := hacc t ht
    have hreq : ValidRequest t.getenv e.stdin vi.supported v := ⟨hac.env, ⟨_, hac.name⟩, ⟨_, hcv, hsup, hmin⟩⟩
    have hcalls := c35_valid_called t funcs vi about ns v e.stdin f ht.stdin hreq (fun _ => hread) hf
    refine ⟨delegate_gets hen ht hargs hac hcv hmin hdel, fun hs => ?_, fun ce hce hcode hm hdt => ?_⟩
    · have ho := hret.2 hs
      subst ho
      have hx : x = .ok () := hx
      subst hx
      have hfa : f (requestArgs t.getenv e.stdin) = .ok () := by
        have := hfx (requestArgs t.getenv e.stdin)
        unfold ReturnsAs at this
        split at this
        · assumption
        · cases this
        · cases this
      have hs := c38_success t funcs vi about ns v e.stdin f ht.stdin hreq (fun _ => hread) hf hfa (.inr hap)
      exact ⟨_, c53_skel_answer quote e t funcs vi about ns printed stderr hans v _ hcalls (by rw [hs])⟩
    · have ho := herr _ hce
      subst ho
      have hx : x = .error (.cni ce) := hx
      subst hx
      have hfa : f (requestArgs t.getenv e.stdin) = .err (.cni ce) := by
        have := hfx (requestArgs t.getenv e.stdin)
        unfold ReturnsAs at this
        split at this
        · cases this
        · rename_i hg; cases this; exact hg
        · cases this
      have h1 := (c36_callback_error t funcs vi about ns v e.stdin f _ ht.stdin hreq (fun _ => hread) hf hfa).1 ce rfl
      have hq : ∀ x ∈ (t.pluginMain funcs vi about ns).calls, printed x = [] := by
        intro x hx
        rw [hcalls, List.mem_singleton] at hx
        subst hx
        exact hprt _
      have := c46_skel_answer quote e t funcs vi about ns printed stderr hans ce hcode h1 hq
      rw [this]
      show Except.error (GoErr.cni { code := ce.code, msg := sanitize ce.msg, details := sanitize ce.details }) = _
      rw [sanitize_of_isUtf8 hm, sanitize_of_isUtf8 hdt]

/-- C69 for DEL. -/
theorem c69_del (c : CNIConfig) (list : NetConfList) (rt : RuntimeConf) (hrt : rt.OK) (hcid : ValidName rt.containerID)
    (hname : ValidName list.name) (hif : ValidIfName rt.ifName) (hpath : joinWith b!":" c.path ≠ [])
    (hutf : isUtf8 list.cniVersion = true)
    (fs fs' : FS) (tr : Trace) (o : Out Unit) (h : Runs flt (c.delNetworkList list rt) fs tr fs' o)
    (enum : MapEnum) (hen : IsMapOrder enum) (environ : List Bytes) (i : Nat) (e : ExecEv) (hi : tr.execs[i]? = some e)
    (p : PluginConfig) (hp : list.plugins.reverse[i]? = some p) (hplain : PlainVersion p.bytes)
    (quote : Bytes → Bytes) (x : Except GoErr Unit) (hpl : QuietPlugin quote enum environ list.cniVersion .del x e)
    (plugin : Bytes) (fd fd' : FS) (trd : Trace) (od : Out Unit)
    (hd : Runs flt (delegateDel (e.args.env enum environ) plugin e.stdin) fd trd fd' od) (hx : ReturnsAs od x)
    (e' : ExecEv) (he' : e' ∈ trd.execs) :
    GetsTheSame c rt list.cniVersion .del (e.args.env enum environ) e.stdin e' ∧ (Succeeded e' → Succeeded e) ∧
    (∀ ce, e'.resp = .error (.cni ce) → ce.code < 2 ^ 64 → isUtf8 ce.msg = true → isUtf8 ce.details = true → e.resp = .error (.cni ce)) := by
  obtain ⟨-, y, hdel, -, hok⟩ := c41_del _ plugin e.stdin fd fd' trd od hd
  have hacc : ∀ t, ProcessOf enum environ e t → Accepted c .del list.name list.cniVersion rt p.bytes e t ∧ ConfVersion e.stdin (effective list.cniVersion) := by
    intro t ht
    obtain ⟨q, hq, hacc⟩ := c39_del_list c list rt hrt hcid hname hif hpath fs fs' tr o h enum hen environ i e hi t ht
    rw [hp] at hq
    cases hq
    obtain ⟨w, hcv, hweq, -⟩ := hacc.version
    have hw := hweq hplain
    rw [sanitize_of_isUtf8 hutf] at hw
    exact ⟨hacc, hw ▸ hcv⟩
  have hargs : e.args = .args (attachArgs c b!"DEL" rt) := by
    by_cases hv : ∃ p, Reads list.cniVersion p
    · obtain ⟨⟨prev, hsw⟩, -⟩ := c14_del_list c list rt hrt fs fs' tr o h hv
      obtain ⟨_, _, hin⟩ := hsw.invoked i e hi
      exact hin.args
    · rw [(c14_del_bad_version c list rt hrt fs fs' tr o h hv).1] at hi
      simp at hi
  exact quiet_through hen hargs hacc (by intro u hu; cases hu) hpl hx hdel hok e' he'

/-- C69 for CHECK. -/
theorem c69_check (c : CNIConfig) (list : NetConfList) (rt : RuntimeConf) (hrt : rt.OK) (hcid : ValidName rt.containerID)
    (hname : ValidName list.name) (hif : ValidIfName rt.ifName) (hns : rt.netNS ≠ []) (hpath : joinWith b!":" c.path ≠ [])
    (fs fs' : FS) (tr : Trace) (o : Out Unit) (h : Runs flt (c.checkNetworkList list rt) fs tr fs' o)
    (enum : MapEnum) (hen : IsMapOrder enum) (environ : List Bytes) (i : Nat) (e : ExecEv) (hi : tr.execs[i]? = some e)
    (p : PluginConfig) (hp : list.plugins[i]? = some p) (hplain : PlainVersion p.bytes)
    (quote : Bytes → Bytes) (x : Except GoErr Unit) (hpl : QuietPlugin quote enum environ list.cniVersion .check x e)
    (plugin : Bytes) (fd fd' : FS) (trd : Trace) (od : Out Unit)
    (hd : Runs flt (delegateCheck (e.args.env enum environ) plugin e.stdin) fd trd fd' od) (hx : ReturnsAs od x)
    (e' : ExecEv) (he' : e' ∈ trd.execs) :
    GetsTheSame c rt list.cniVersion .check (e.args.env enum environ) e.stdin e' ∧ (Succeeded e' → Succeeded e) ∧
    (∀ ce, e'.resp = .error (.cni ce) → ce.code < 2 ^ 64 → isUtf8 ce.msg = true → isUtf8 ce.details = true → e.resp = .error (.cni ce)) := by
  obtain ⟨-, y, hdel, -, hok⟩ := c41_check _ plugin e.stdin fd fd' trd od hd
  obtain ⟨-, h0, h1, h2⟩ := c15_check_list c list rt hrt fs fs' tr o h
  have hne : tr.execs ≠ [] := fun hnil => by rw [hnil] at hi; simp at hi
  have ha : AtLeast list.cniVersion (0, 4, 0) := Classical.byContradiction fun ha => hne (h0 ha).1
  have hse := atLeast_effective ha (by simp [LexLt])
  have heff : effective list.cniVersion = list.cniVersion := by
    obtain ⟨q, hq, -⟩ := id ha
    rwa [reads_ascii hq] at hse
  have hargs : e.args = .args (attachArgs c b!"CHECK" rt) := by
    cases hdc : list.disableCheck with
    | true => exact absurd (h1 ha hdc).1 hne
    | false =>
      rcases h2 ha hdc with ⟨tr1, prev, _, hsw, _⟩ | ⟨hn, _⟩
      · obtain ⟨_, _, hin⟩ := hsw.invoked i e hi
        exact hin.args
      · exact absurd hn hne
  have hacc : ∀ t, ProcessOf enum environ e t → Accepted c .check list.name list.cniVersion rt p.bytes e t ∧ ConfVersion e.stdin (effective list.cniVersion) := by
    intro t ht
    obtain ⟨q, hq, hacc, -⟩ := c39_check_list c list rt hrt hcid hname hif hns hpath fs fs' tr o h enum hen environ i e hi t ht
    rw [hp] at hq
    cases hq
    obtain ⟨w, hcv, hweq, -⟩ := hacc.version
    have hw := hweq hplain
    rw [hse, ← heff] at hw
    exact ⟨hacc, hw ▸ hcv⟩
  exact quiet_through hen hargs hacc (by intro u hu; cases hu; rw [heff]; exact ha) hpl hx hdel hok e' he'

/-- C69 for STATUS. -/
theorem c69_status (c : CNIConfig) (list : NetConfList) (hname : ValidName list.name) (hpath : joinWith b!":" c.path ≠ [])
    (hplain : ∀ p ∈ list.plugins, PlainVersion p.bytes)
    (fs fs' : FS) (tr : Trace) (o : Out Unit) (h : Runs flt (c.getStatusNetworkList list) fs tr fs' o)
    (enum : MapEnum) (hen : IsMapOrder enum) (environ : List Bytes) (e : ExecEv) (he : e ∈ tr.execs)
    (quote : Bytes → Bytes) (x : Except GoErr Unit) (hpl : QuietPlugin quote enum environ list.cniVersion .status x e)
    (plugin : Bytes) (fd fd' : FS) (trd : Trace) (od : Out Unit)
    (hd : Runs flt (delegateStatus (e.args.env enum environ) plugin e.stdin) fd trd fd' od) (hx : ReturnsAs od x)
    (e' : ExecEv) (he' : e' ∈ trd.execs) :
    GetsTheSame c {} list.cniVersion .status (e.args.env enum environ) e.stdin e' ∧ (Succeeded e' → Succeeded e) ∧
    (∀ ce, e'.resp = .error (.cni ce) → ce.code < 2 ^ 64 → isUtf8 ce.msg = true → isUtf8 ce.details = true → e.resp = .error (.cni ce)) := by
  obtain ⟨-, y, hdel, -, hok⟩ := c41_status _ plugin e.stdin fd fd' trd od hd
  by_cases ha : AtLeast list.cniVersion (1, 1, 0)
  · have heff := atLeast110_effective ha
    have hsan := readable_sanitize (ver := list.cniVersion) (let ⟨q, hq, _⟩ := id ha; ⟨q, by rw [heff]; exact hq⟩)
    have hargs := (queried_execs (c25_status c list ha fs fs' tr o h).2 e he).1
    have hacc : ∀ t, ProcessOf enum environ e t → Accepted c .status list.name list.cniVersion {} [] e t ∧ ConfVersion e.stdin (effective list.cniVersion) := by
      intro t ht
      obtain ⟨p, hp, hacc, -⟩ := c39_status c list hname hpath fs fs' tr o h enum hen environ e he t ht
      obtain ⟨w, hcv, hweq, hpass⟩ := hacc.version
      have hw := hweq (hplain p hp)
      have hs : effective (sanitize list.cniVersion) = effective list.cniVersion := by first | exact hsan | rw [hsan]
      exact ⟨⟨hacc.env, hacc.name, hacc.sees, w, hcv, fun _ => hw, hpass⟩, by rw [← hs, ← hw]; exact hcv⟩
    exact quiet_through hen hargs hacc (by intro u hu; cases hu; rw [heff]; exact ha) hpl hx hdel hok e' he'
  · rw [(c25_old c list ha fs fs' tr o h).1] at he
    cases he

/-- C69 for GC: the plugin may delegate the GC itself, and each DEL that GC makes for an attachment that is not valid any more (with the
names in its cache entry). -/
theorem c69_gc (c : CNIConfig) (list : NetConfList) (valid : Option (List GCAttachment)) (hname : ValidName list.name)
    (hpath : joinWith b!":" c.path ≠ []) (hplain : ∀ p ∈ list.plugins, PlainVersion p.bytes) (hutf : isUtf8 list.cniVersion = true)
    (fs fs' : FS) (tr : Trace) (o : Out Unit) (h : Runs flt (c.gcNetworkList list valid) fs tr fs' o)
    (enum : MapEnum) (hen : IsMapOrder enum) (environ : List Bytes) (e : ExecEv) (he : e ∈ tr.execs)
    (quote : Bytes → Bytes) (x : Except GoErr Unit) (plugin : Bytes) (fd fd' : FS) (trd : Trace) (od : Out Unit) (hx : ReturnsAs od x)
    (e' : ExecEv) (he' : e' ∈ trd.execs) :
    (e.args = .args (attachArgs c b!"GC" {}) ∧ (QuietPlugin quote enum environ list.cniVersion .gc x e →
      Runs flt (delegateGC (e.args.env enum environ) plugin e.stdin) fd trd fd' od →
      GetsTheSame c {} list.cniVersion .gc (e.args.env enum environ) e.stdin e' ∧ (Succeeded e' → Succeeded e) ∧
      (∀ ce, e'.resp = .error (.cni ce) → ce.code < 2 ^ 64 → isUtf8 ce.msg = true → isUtf8 ce.details = true → e.resp = .error (.cni ce)))) ∨
    ∃ a, InCache c fs a ∧ Stale list.name valid a ∧ e.args = .args (attachArgs c b!"DEL" (rtOf a)) ∧
      (ValidName a.containerID → ValidIfName a.ifName → QuietPlugin quote enum environ list.cniVersion .del x e →
        Runs flt (delegateDel (e.args.env enum environ) plugin e.stdin) fd trd fd' od →
        GetsTheSame c (rtOf a) list.cniVersion .del (e.args.env enum environ) e.stdin e' ∧ (Succeeded e' → Succeeded e) ∧
        (∀ ce, e'.resp = .error (.cni ce) → ce.code < 2 ^ 64 → isUtf8 ce.msg = true → isUtf8 ce.details = true → e.resp = .error (.cni ce))) := by
  have hs : effective (sanitize list.cniVersion) = effective list.cniVersion := by rw [sanitize_of_isUtf8 hutf]
  rcases c22_execs c list valid fs fs' tr o h e he with ⟨a, hin, hst, p, hp, prev, hinv⟩ | ⟨hat, p, hp, hg⟩
  · refine .inr ⟨a, hin, hst, hinv.args, fun hcid hif hpl hd => ?_⟩
    obtain ⟨-, y, hdel, -, hok⟩ := c41_del _ plugin e.stdin fd fd' trd od hd
    refine quiet_through hen hinv.args (orig := p.bytes) (name := list.name) (fun t ht => ?_) (by intro u hu; cases hu) hpl hx hdel hok e' he'
    have hacc := invoked_accepted hen ht (v := .del) (.inr (.inr rfl)) hinv hcid hname hif (.inl rfl) hpath
    obtain ⟨w, hcv, hweq, -⟩ := hacc.version
    exact ⟨hacc, by rw [← hs, ← hweq (hplain p hp)]; exact hcv⟩
  · refine .inl ⟨hg.args, fun hpl hd => ?_⟩
    obtain ⟨-, y, hdel, -, hok⟩ := c41_gc _ plugin e.stdin fd fd' trd od hd
    have heff := atLeast110_effective hat
    refine quiet_through hen hg.args (orig := p.bytes) (name := list.name) (fun t ht => ?_) (by intro u hu; cases hu; rw [heff]; exact hat) hpl hx hdel hok e' he'
    have hacc := (bare_accepted hen ht (v := .gc) (by simp [OfAttachment]) hg.args hg.stdin hname hpath hat).1
    obtain ⟨w, hcv, hweq, -⟩ := hacc.version
    exact ⟨hacc, by rw [← hs, ← hweq (hplain p hp)]; exact hcv⟩

/-- C69 for DEL of a single network. -/
theorem c69_del_network (c : CNIConfig) (net : PluginConfig) (rt : RuntimeConf) (hrt : rt.OK) (hcid : ValidName rt.containerID)
    (hname : ValidName net.network.name) (hif : ValidIfName rt.ifName) (hpath : joinWith b!":" c.path ≠ [])
    (hutf : isUtf8 net.network.cniVersion = true) (hplain : PlainVersion net.bytes)
    (fs fs' : FS) (tr : Trace) (o : Out Unit) (h : Runs flt (c.delNetwork net rt) fs tr fs' o)
    (enum : MapEnum) (hen : IsMapOrder enum) (environ : List Bytes) (e : ExecEv) (he : e ∈ tr.execs)
    (quote : Bytes → Bytes) (x : Except GoErr Unit) (hpl : QuietPlugin quote enum environ net.network.cniVersion .del x e)
    (plugin : Bytes) (fd fd' : FS) (trd : Trace) (od : Out Unit)
    (hd : Runs flt (delegateDel (e.args.env enum environ) plugin e.stdin) fd trd fd' od) (hx : ReturnsAs od x)
    (e' : ExecEv) (he' : e' ∈ trd.execs) :
    GetsTheSame c rt net.network.cniVersion .del (e.args.env enum environ) e.stdin e' ∧ (Succeeded e' → Succeeded e) ∧
    (∀ ce, e'.resp = .error (.cni ce) → ce.code < 2 ^ 64 → isUtf8 ce.msg = true → isUtf8 ce.details = true → e.resp = .error (.cni ce)) := by
  obtain ⟨-, y, hdel, -, hok⟩ := c41_del _ plugin e.stdin fd fd' trd od hd
  obtain ⟨prev, hsw⟩ : ∃ prev, Sweep c b!"DEL" net.network.name net.network.cniVersion rt [net] prev tr := by
    rcases delNetwork_runs hrt h with ⟨hno, _⟩ | ⟨prev, hsw, _⟩
    · rw [hno] at he; cases he
    · exact ⟨prev, hsw⟩
  obtain ⟨i, hi⟩ := List.mem_iff_getElem?.1 he
  obtain ⟨_, _, hin⟩ := hsw.invoked i e hi
  refine quiet_through hen hin.args (orig := net.bytes) (name := net.network.name) (fun t ht => ?_) (by intro u hu; cases hu) hpl hx hdel hok e' he'
  have hacc := c39_del_network c net rt hrt hcid hname hif hpath fs fs' tr o h enum hen environ e he t ht
  obtain ⟨w, hcv, hweq, -⟩ := hacc.version
  have hs : effective (sanitize net.network.cniVersion) = effective net.network.cniVersion := by rw [sanitize_of_isUtf8 hutf]
  exact ⟨hacc, by rw [← hs, ← hweq hplain]; exact hcv⟩

/-- C69 for CHECK of a single network. -/
theorem c69_check_network (c : CNIConfig) (net : PluginConfig) (rt : RuntimeConf) (hrt : rt.OK) (hcid : ValidName rt.containerID)
    (hname : ValidName net.network.name) (hif : ValidIfName rt.ifName) (hns : rt.netNS ≠ []) (hpath : joinWith b!":" c.path ≠ [])
    (hplain : PlainVersion net.bytes)
    (fs fs' : FS) (tr : Trace) (o : Out Unit) (h : Runs flt (c.checkNetwork net rt) fs tr fs' o)
    (enum : MapEnum) (hen : IsMapOrder enum) (environ : List Bytes) (e : ExecEv) (he : e ∈ tr.execs)
    (quote : Bytes → Bytes) (x : Except GoErr Unit) (hpl : QuietPlugin quote enum environ net.network.cniVersion .check x e)
    (plugin : Bytes) (fd fd' : FS) (trd : Trace) (od : Out Unit)
    (hd : Runs flt (delegateCheck (e.args.env enum environ) plugin e.stdin) fd trd fd' od) (hx : ReturnsAs od x)
    (e' : ExecEv) (he' : e' ∈ trd.execs) :
    GetsTheSame c rt net.network.cniVersion .check (e.args.env enum environ) e.stdin e' ∧ (Succeeded e' → Succeeded e) ∧
    (∀ ce, e'.resp = .error (.cni ce) → ce.code < 2 ^ 64 → isUtf8 ce.msg = true → isUtf8 ce.details = true → e.resp = .error (.cni ce)) := by
  obtain ⟨-, y, hdel, -, hok⟩ := c41_check _ plugin e.stdin fd fd' trd od hd
  obtain ⟨-, h0, h2⟩ := c15_check_network c net rt hrt fs fs' tr o h
  have hne : tr.execs ≠ [] := fun hnil => by rw [hnil] at he; cases he
  have ha : AtLeast net.network.cniVersion (0, 4, 0) := Classical.byContradiction fun ha => hne (h0 ha).1
  have hse := atLeast_effective ha (by simp [LexLt])
  have heff : effective net.network.cniVersion = net.network.cniVersion := by
    obtain ⟨q, hq, -⟩ := id ha
    rwa [reads_ascii hq] at hse
  have hargs : e.args = .args (attachArgs c b!"CHECK" rt) := by
    rcases h2 ha with ⟨tr1, prev, _, hsw, _⟩ | ⟨hn, _⟩
    · obtain ⟨i, hi⟩ := List.mem_iff_getElem?.1 he
      obtain ⟨_, _, hin⟩ := hsw.invoked i e hi
      exact hin.args
    · exact absurd hn hne
  refine quiet_through hen hargs (orig := net.bytes) (name := net.network.name) (fun t ht => ?_) (by intro u hu; cases hu; rw [heff]; exact ha) hpl hx hdel hok e' he'
  have hacc := (c39_check_network c net rt hrt hcid hname hif hns hpath fs fs' tr o h enum hen environ e he t ht).1
  obtain ⟨w, hcv, hweq, -⟩ := hacc.version
  have hw := hweq hplain
  rw [hse, ← heff] at hw
  exact ⟨hacc, hw ▸ hcv⟩

/-- C69 for ADD of a single network. -/
theorem c69_add_network (c : CNIConfig) (net : PluginConfig) (rt : RuntimeConf) (hrt : rt.OK) (hns : rt.netNS ≠ [])
    (hpath : joinWith b!":" c.path ≠ []) (hv : effective net.network.cniVersion ∈ specVersions)
    (hplain : PlainConf net.bytes) (hread : ReadAs net.bytes net.network) (hraw : net.network.rawPrev = none)
    (fs fs' : FS) (tr : Trace) (o : Out Result) (h : Runs flt (c.addNetwork net rt) fs tr fs' o)
    (enum : MapEnum) (hen : IsMapOrder enum) (environ : List Bytes) (e : ExecEv) (he : e ∈ tr.execs)
    (quote : Bytes → Bytes) (x : Except GoErr Result) (hpl : PluginOf quote enum environ net.network.cniVersion (fun _ _ => x) e)
    (plugin : Bytes) (fd fd' : FS) (trd : Trace) (od : Out Result)
    (hd : Runs flt (delegateAdd (e.args.env enum environ) plugin e.stdin) fd trd fd' od) (hx : ReturnsAs od x)
    (e' : ExecEv) (he' : e' ∈ trd.execs) :
    GetsTheSame c rt net.network.cniVersion .add (e.args.env enum environ) e.stdin e' ∧
    (∀ r, Returned e' r → Passable net.network.cniVersion r → ∀ y, Returned e y ↔ y = r) ∧
    (∀ ce, e'.resp = .error (.cni ce) → ce.code < 2 ^ 64 → isUtf8 ce.msg = true → isUtf8 ce.details = true → e.resp = .error (.cni ce)) := by
  obtain ⟨-, y, hdel, -, hok⟩ := c41_add _ plugin e.stdin fd fd' trd od hd
  cases y with
  | error g =>
    obtain ⟨_, _, _, _, _, hno⟩ := hdel
    rw [hno] at he'
    cases he'
  | ok e1 =>
    have : e' = e1 := by
      obtain ⟨_, _, _, _, _, hone, _⟩ := id hdel
      rw [hone] at he'
      exact List.mem_singleton.1 he'
    subst this
    obtain ⟨hret, herr⟩ := hok e' rfl
    obtain ⟨rs, hch, -, -⟩ := c12_add_network c net rt hrt fs fs' tr o h
    obtain ⟨i, hi⟩ := List.mem_iff_getElem?.1 he
    obtain ⟨p, hp, hin⟩ := hch.invoked i e hi
    have hi0 : i = 0 ∧ p = net := by
      cases i with
      | zero => cases hp; exact ⟨rfl, rfl⟩
      | succ j => simp at hp
    obtain ⟨rfl, rfl⟩ := hi0
    obtain ⟨doc, hdoc, hst⟩ := hin.stdin
    have hacc := fun t ht => c39_add_network c p rt hrt hns hpath fs fs' tr o h enum hen environ e he t ht
    have hreply : ∀ f, Proper c (aloneIn p) rt p f → PluginOf quote enum environ p.network.cniVersion f e →
        ∃ conf a, Told c (aloneIn p) rt p none conf a ∧
          (∀ g, f conf a = .error g → e.resp = .error (.cni (reported g))) ∧
          (∀ r g, f conf a = .ok r → r.getAsVersion p.network.cniVersion = .err g → e.resp = .error (.cni (reported g))) ∧
          ∀ r r', f conf a = .ok r → r.getAsVersion p.network.cniVersion = .ok r' → ∀ x, Returned e x ↔ x = std r' :=
      fun f hf hplf => plugin_replies (list := aloneIn p) hv hacc hplain hread hraw hf hplf hdoc hst (fun r hr => by cases hr)
    refine ⟨?_, ?_, ?_⟩
    · obtain ⟨t, _, _, _, _, _, _, ht, _⟩ := id hpl
      obtain ⟨w, hcv, hweq, -⟩ := (hacc t ht).version
      have hw := hweq (plainVersion_of hplain)
      rw [(sanitize_spec (sameFormat_self hv)).1] at hw
      subst hw
      exact delegate_gets hen ht hin.args (hacc t ht) hcv (by intro u hu; cases hu) hdel
    · intro r hr hpass
      have ho := (hret r).2 hr
      subst ho
      have hx : x = .ok r := hx
      subst hx
      have hga := passable_getAsVersion hpass
      have hproper : Proper c (aloneIn p) rt p (fun _ _ => .ok r) := by
        refine ⟨fun _ _ _ _ _ g ce hg _ => (by cases hg), fun _ _ _ _ _ r1 hr1 => ?_⟩
        cases hr1
        refine ⟨.inr hpass.typed, ?_, fun r' hr' => ?_⟩
        · show Result.getAsVersion _ p.network.cniVersion ≠ _
          rw [hga]; intro h; cases h
        · change Result.getAsVersion _ p.network.cniVersion = _ at hr'
          rw [hga] at hr'
          cases hr'
          rw [std_id hpass.rep]
          exact hpass.rep
      obtain ⟨conf, a, -, -, -, hans⟩ := hreply _ hproper hpl
      have := hans r r rfl hga
      rwa [std_id hpass.rep] at this
    · intro ce hce hcode hm hdt
      have ho := herr _ hce
      subst ho
      have hx : x = .error (.cni ce) := hx
      subst hx
      have hproper : Proper c (aloneIn p) rt p (fun _ _ => .error (.cni ce)) := by
        refine ⟨fun _ _ _ _ _ g ce' hg hce' => ?_, fun _ _ _ _ _ r1 hr1 => (by cases hr1)⟩
        cases hg
        cases hce'
        exact hcode
      obtain ⟨conf, a, -, hans, -, -⟩ := hreply _ hproper hpl
      rw [hans _ rfl]
      show Except.error (GoErr.cni { code := ce.code, msg := sanitize ce.msg, details := sanitize ce.details }) = _
      rw [sanitize_of_isUtf8 hm, sanitize_of_isUtf8 hdt]

/-! ### a concrete case -/

namespace Example

/-- What the delegate returns. Test data; models no code. -/
def delegated : Result :=
  .v100 { cniVersion := b!"1.0.0", ips := [some { address := ⟨[0,0,0,0, 0,0,0,0, 0,0,0xff,0xff, 10,0,0,2], [255,255,255,0]⟩ }] }

/-- Test data; models no code. -/
def ipam (_p _i : Bytes) (_a : PArgs) : Except GoErr Bytes := .ok b!"{\"cniVersion\":\"1.0.0\",\"ips\":[{\"address\":\"10.0.0.2/24\"}]}"

/-- Test data; models no code. -/
def oneList : NetConfList := { list with plugins := [plugA] }

/-- The delegation in the process of an execution. Observation in tests; models no code. -/
def inside (e : ExecEv) : Option (Trace × FS × Out Result) :=
  (delegateAdd (e.args.env List.reverse homeEnv) b!"ipam" e.stdin).interp find ipam noFiles

/-- C69: the plugin `a` delegates to `ipam`, in the environment it was started with, and what `ipam` returns is what ADD returns. -/
example : ∃ tr fs' o e trd fd' e', Runs false (cfg.addNetworkList oneList rt) noFiles tr fs' o ∧ tr.execs[0]? = some e ∧
    PluginOf id List.reverse homeEnv oneList.cniVersion (fun _ _ => .ok delegated) e ∧
    Runs false (delegateAdd (e.args.env List.reverse homeEnv) b!"ipam" e.stdin) noFiles trd fd' (.ok delegated) ∧ e' ∈ trd.execs ∧
    Returned e' delegated ∧ Passable oneList.cniVersion delegated ∧ (PlainConf plugA.bytes ∧ ReadAs plugA.bytes plugA.network ∧ plugA.network.rawPrev = none) ∧
    o.toOption = some (some delegated) := by
  have hrun : ((cfg.addNetworkList oneList rt).interp find (chainExec (fun _ _ => .ok delegated) assign) noFiles).map
      (fun x => (x.1.execs.map fun e => (inside e).map fun x => (x.1.execs.map (·.path), x.2.2.toOption))) =
      some [some ([b!"/bin/ipam"], some delegated)] := by decide +kernel
  obtain ⟨x, hx, hex⟩ := Option.map_eq_some_iff.1 hrun
  have ho : x.2.2.toOption = some (some delegated) := by
    have : ((cfg.addNetworkList oneList rt).interp find (chainExec (fun _ _ => .ok delegated) assign) noFiles).map
      (fun x => x.2.2.toOption) = some (some (some delegated)) := by decide +kernel
    rw [hx] at this
    exact Option.some.inj this
  obtain ⟨e, he, hin⟩ : ∃ e, x.1.execs = [e] ∧ (inside e).map (fun x => (x.1.execs.map (·.path), x.2.2.toOption)) = some ([b!"/bin/ipam"], some delegated) := by
    match h : x.1.execs with
    | [] => rw [h] at hex; cases hex
    | [e] => rw [h] at hex; exact ⟨e, rfl, by simpa using hex⟩
    | _ :: _ :: _ => rw [h] at hex; simp at hex
  obtain ⟨y, hy, hyo⟩ := Option.map_eq_some_iff.1 hin
  simp only [Prod.mk.injEq] at hyo
  obtain ⟨e', he'⟩ : ∃ e', y.1.execs = [e'] := by
    match h : y.1.execs with
    | [] => rw [h] at hyo; cases hyo.1
    | [e'] => exact ⟨e', rfl⟩
    | _ :: _ :: _ => rw [h] at hyo; simp at hyo
  have hyr := Prog.interp_runs (flt := false) _ hy
  have hok : y.2.2 = .ok delegated := toOption_some.2 hyo.2
  rw [hok] at hyr
  have hresp : e.resp = chainExec (fun _ _ => .ok delegated) assign e.path e.stdin e.args := interp_execs _ hx e (by rw [he]; simp)
  have hpath : e.path = b!"/bin/a" := by
    obtain ⟨rs, hch, -⟩ := addNetworkList_runs rt_ok (Prog.interp_runs (flt := false) _ hx)
    obtain ⟨p, hp, hinv⟩ := hch.invoked 0 e (by rw [he]; rfl)
    cases hp
    obtain ⟨i, hi⟩ := finds_event hinv.found
    have hall : x.1.finds.map (fun f => f.resp.toOption) = [some b!"/bin/a"] := by
      have : ((cfg.addNetworkList oneList rt).interp find (chainExec (fun _ _ => .ok delegated) assign) noFiles).map
        (fun x => x.1.finds.map (fun f => f.resp.toOption)) = some [some b!"/bin/a"] := by decide +kernel
      rw [hx] at this
      exact Option.some.inj this
    have := List.mem_map_of_mem (f := fun f : FindEv => f.resp.toOption) hinv.found
    rw [hall] at this
    simpa [Except.toOption] using this
  have hpl : PluginOf id List.reverse homeEnv oneList.cniVersion (fun _ _ => .ok delegated) e := by
    refine pluginOf_run _ e ?_
    rw [hresp]
    unfold chainExec
    rw [if_pos hpath]
    rfl
  obtain ⟨-, z, hdel, -, hdok⟩ := c41_add _ _ _ _ _ _ _ hyr
  have hret : Returned e' delegated := by
    cases z with
    | error g =>
      obtain ⟨_, _, _, _, _, hno⟩ := hdel
      rw [hno] at he'
      cases he'
    | ok e1 =>
      obtain ⟨_, _, _, _, _, hone, _⟩ := id hdel
      rw [hone] at he'
      cases he'
      exact ((hdok _ rfl).1 delegated).1 rfl
  exact ⟨x.1, x.2.1, x.2.2, e, y.1, y.2.1, e', Prog.interp_runs _ hx, by rw [he]; rfl, hpl, hyr, by rw [he']; simp, hret,
    ⟨by simp only [WellTyped, delegated]; decide, rfl, by decide⟩, ⟨(plug_plain plugA (by simp [list])).1, (plug_plain plugA (by simp [list])).2, rfl⟩, ho⟩

/-- A DEL request. Test data; models no code. -/
def delRequest : ExecEv :=
  { path := b!"/bin/a", stdin := b!"{\"cniVersion\":\"1.0.0\",\"name\":\"net\",\"type\":\"a\"}", args := .args (attachArgs cfg b!"DEL" rt), resp := .ok [] }

/-- C69: a plugin that answers it silently. -/
example : QuietPlugin id List.reverse homeEnv b!"1.0.0" .del (.ok ()) delRequest := by
  refine ⟨proc delRequest, plugin, vinfo, b!"about", nowhere, fun _ => [], [], fun _ => .ok (), proc_of _, rfl, fun _ => rfl, fun _ => rfl,
    by decide, ?_, .inr (.inl rfl), ?_⟩
  · intro s hs
    simp only [vinfo, List.mem_cons, List.not_mem_nil, or_false] at hs
    rcases hs with rfl | rfl
    · exact ⟨_, (parseVersion_iff b!"0.4.0" (0, 4, 0)).1 (by decide)⟩
    · exact ⟨_, (parseVersion_iff b!"1.0.0" (1, 0, 0)).1 (by decide)⟩
  · unfold AnsweredBy
    have : rawExec id (fun _ => ((proc delRequest).mainFuncs plugin vinfo b!"about" nowhere fun _ => []).runResult []) = .ok ([], []) := by rfl
    rw [this]
    rfl

/-- What the delegate reports. Test data; models no code. -/
def busy : CniErr := { code := 50, msg := b!"no addresses left" }

/-- A plugin all of whose callbacks return `y` and print nothing. Test data; models no code. -/
def sameFor (y : Out Unit) : CNIFuncs :=
  { add := some fun _ => y, del := some fun _ => y, check := some fun _ => y, gc := some fun _ => y, status := some fun _ => y }

/-- Test data; models no code. -/
def vinfo11 : PluginInfo := { supported := [b!"0.4.0", b!"1.0.0", b!"1.1.0"] }

/-- The answer of that plugin. Observation in tests; models no code. -/
def quietRun (y : Out Unit) (p i : Bytes) (a : PArgs) : Except GoErr Bytes :=
  match rawExec id (fun _ => ((proc { path := p, stdin := i, args := a, resp := .ok [] }).mainFuncs (sameFor y) vinfo11 b!"about" nowhere fun _ => []).runResult []) with
  | .ok (out, _) => .ok out
  | .error ce => .error (.cni ce)

theorem quiet_of (v : Callback) (ver : Bytes) (hv : effective ver ∈ vinfo11.supported) (y : Out Unit) (x : Except GoErr Unit)
    (hyx : ReturnsAs y x) (e : ExecEv) (h : e.resp = quietRun y e.path e.stdin e.args) : QuietPlugin id List.reverse homeEnv ver v x e := by
  refine ⟨proc e, sameFor y, vinfo11, b!"about", nowhere, fun _ => [], [], fun _ => y, proc_of _, by cases v <;> rfl, fun _ => hyx, fun _ => rfl,
    hv, ?_, .inr (.inl rfl), h⟩
  intro s hs
  simp only [vinfo11, List.mem_cons, List.not_mem_nil, or_false] at hs
  rcases hs with rfl | rfl | rfl
  · exact ⟨_, (parseVersion_iff b!"0.4.0" (0, 4, 0)).1 (by decide)⟩
  · exact ⟨_, (parseVersion_iff b!"1.0.0" (1, 0, 0)).1 (by decide)⟩
  · exact ⟨_, (parseVersion_iff b!"1.1.0" (1, 1, 0)).1 (by decide)⟩

/-- The delegate. Test data; models no code. -/
def fullUp (_p _i : Bytes) (_a : PArgs) : Except GoErr Bytes := .error (.cni busy)

/-- C69: the first plugin delegates its STATUS to `ipam`, which is out of addresses: STATUS of the list fails with its error. -/
example : ∃ tr fs' o e trd fd' e', Runs false (cfg.getStatusNetworkList list11) noFiles tr fs' o ∧ e ∈ tr.execs ∧
    QuietPlugin id List.reverse homeEnv list11.cniVersion .status (.error (.cni busy)) e ∧
    Runs false (delegateStatus (e.args.env List.reverse homeEnv) b!"ipam" e.stdin) noFiles trd fd' (.err (.cni busy)) ∧ e' ∈ trd.execs ∧
    (e.resp = .error (.cni busy) ∧ GetsTheSame cfg {} list11.cniVersion .status (e.args.env List.reverse homeEnv) e.stdin e') ∧
    o.toOption = none := by
  have hrun : ((cfg.getStatusNetworkList list11).interp find (quietRun (.err (.cni busy))) noFiles).map
      (fun x => (x.1.execs.length, x.2.2.toOption)) = some (1, none) := by decide +kernel
  obtain ⟨x, hx, hex⟩ := Option.map_eq_some_iff.1 hrun
  simp only [Prod.mk.injEq] at hex
  obtain ⟨e, he⟩ := List.length_eq_one_iff.1 hex.1
  have hr := Prog.interp_runs (flt := false) _ hx
  have hmem : e ∈ x.1.execs := by rw [he]; simp
  have hq : QuietPlugin id List.reverse homeEnv list11.cniVersion .status (.error (.cni busy)) e :=
    quiet_of .status list11.cniVersion (by decide) (.err (.cni busy)) (.error (.cni busy)) rfl e (interp_execs _ hx e hmem)
  have hargs : e.args = .args (attachArgs cfg b!"STATUS" {}) := by
    have ha : AtLeast list11.cniVersion (1, 1, 0) := ⟨(1, 1, 0), (parseVersion_iff b!"1.1.0" (1, 1, 0)).1 (by decide), by simp [LexLe]⟩
    exact (queried_execs (c25_status cfg list11 ha _ _ _ _ hr).2 e hmem).1
  have hin : ((delegateStatus (e.args.env List.reverse homeEnv) b!"ipam" e.stdin).interp find fullUp noFiles).map
      (fun x => (x.1.execs.length, x.2.2.toOption)) = some (1, none) := by
    rw [hargs]
    rfl
  obtain ⟨y, hy, hyo⟩ := Option.map_eq_some_iff.1 hin
  simp only [Prod.mk.injEq] at hyo
  obtain ⟨e', he'⟩ := List.length_eq_one_iff.1 hyo.1
  have hyr := Prog.interp_runs (flt := false) _ hy
  have hmem' : e' ∈ y.1.execs := by rw [he']; simp
  have hresp : e'.resp = .error (.cni busy) := interp_execs _ hy e' hmem'
  obtain ⟨-, z, hdel, -, hok⟩ := c41_status _ _ _ _ _ _ _ hyr
  have hout : y.2.2 = .err (.cni busy) := by
    cases z with
    | error g =>
      obtain ⟨_, _, _, _, _, hno⟩ := hdel
      rw [hno] at he'
      cases he'
    | ok e1 =>
      obtain ⟨_, _, _, _, _, hone, _⟩ := id hdel
      rw [hone] at he'
      cases he'
      exact (hok _ rfl).2 _ hresp
  rw [hout] at hyr
  have := c69_status cfg list11 ((cniReg_iff _).1 (by decide)) (by decide) (fun p hp => plainVersion_of (plug_plain p hp).1) _ _ _ _ hr List.reverse (fun m => List.reverse_perm m) homeEnv e hmem
    id (.error (.cni busy)) hq b!"ipam" _ _ _ _ hyr rfl e' hmem'
  exact ⟨x.1, x.2.1, x.2.2, e, y.1, y.2.1, e', hr, hmem, hq, hyr, hmem', ⟨this.2.2 busy hresp (by decide) (by decide) (by decide), this.1⟩, hex.2⟩

end Example

end Verif
