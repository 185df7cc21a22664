/- C75: which fields a request to a plugin has. -/
import Verif.Spec.Request
import Verif.Spec.Query
import Verif.Props.Add
import Verif.Props.Del
import Verif.Props.Gc
import Verif.Props.Query

namespace Verif
open Spec

theorem lastMember_of_not {α : Type} {ms : List (Bytes × α)} {k : Bytes} (h : ¬ NoMember ms k) : ∃ v, LastMember ms k v := by
  induction ms with
  | nil => exact absurd (fun m hm => by cases hm) h
  | cons x t ih =>
    by_cases ht : NoMember t k
    · obtain ⟨a, b⟩ := x
      by_cases hx : a = k
      · subst hx; exact ⟨b, [], t, rfl, ht⟩
      · refine absurd ?_ h
        intro m hm
        rcases List.mem_cons.1 hm with rfl | hm
        · exact hx
        · exact ht m hm
    · obtain ⟨v, a, b, rfl, hb⟩ := ih ht
      exact ⟨v, x :: a, b, rfl, hb⟩

theorem keeps_says {ms M : List (Bytes × Json)} {k : Bytes} (h : Keeps ms M k) : (¬ NoMember M k ↔ ¬ NoMember ms k) := by
  constructor
  · exact fun hm hn => hm (h.2 hn)
  · intro hn hm
    obtain ⟨v, hv⟩ := lastMember_of_not hn
    obtain ⟨w, -, hw⟩ := h.1 v hv
    exact hm _ hw rfl

theorem says_of {text k : Bytes} {ms : List (Bytes × Json)} (h : Json.parse text = some (.obj ms)) : Says text k ↔ ¬ NoMember ms k := by
  constructor
  · rintro ⟨m, hm, hk⟩
    rw [h] at hm; cases hm; exact hk
  · exact fun hk => ⟨ms, h, hk⟩

theorem says_mem {text k : Bytes} {v : Json} {ms : List (Bytes × Json)} (h : Json.parse text = some (.obj ms)) (hm : (k, v) ∈ ms) :
    Says text k := ⟨ms, h, fun hn => hn _ hm rfl⟩

theorem attachFields_of {orig name ver stdin : Bytes} {prev : Option Json} {args : GoMap Json}
    (h : StdinSpec orig name ver prev args stdin) : AttachFields orig (prev ≠ none) args stdin := by
  obtain ⟨ms, M, rc, ho, hs, -, -, -, hn, hv, hp, hp', ⟨-, hrc⟩, hr, hr', hk⟩ := h
  have hsome : SomeCapability args stdin ↔ rc ≠ [] := by
    constructor
    · rintro ⟨M', k, a, hM, hc, ha⟩ rfl
      rw [hs] at hM; cases hM
      exact absurd ((hrc k a.clean).2 ⟨hc, a, ha, rfl⟩) (by simp)
    · intro hne
      cases hx : rc with
      | nil => exact absurd hx hne
      | cons x t =>
        obtain ⟨k, v⟩ := x
        obtain ⟨hc, a, ha, -⟩ := (hrc k v).1 (by rw [hx]; simp)
        exact ⟨M, k, a, hs, hc, ha⟩
  intro k
  by_cases k1 : k = b!"name"
  · subst k1; exact ⟨fun _ => .inr (.inl rfl), fun _ => says_mem hs hn⟩
  by_cases k2 : k = b!"cniVersion"
  · subst k2; exact ⟨fun _ => .inr (.inr (.inl rfl)), fun _ => says_mem hs hv⟩
  by_cases k3 : k = b!"prevResult"
  · subst k3
    cases hpv : prev with
    | none =>
      have := keeps_says (hp' hpv)
      rw [says_of hs, says_of ho, this]
      simp
    | some r =>
      obtain ⟨j, hj, -⟩ := hp r hpv
      exact ⟨fun _ => .inr (.inr (.inr (.inl ⟨rfl, by simp⟩))), fun _ => says_mem hs hj⟩
  by_cases k4 : k = b!"runtimeConfig"
  · subst k4
    by_cases hne : rc = []
    · have := keeps_says (hr' hne)
      rw [says_of hs, says_of ho, this, hsome]
      simp [hne]
    · exact ⟨fun _ => .inr (.inr (.inr (.inr ⟨rfl, hsome.2 hne⟩))), fun _ => says_mem hs (hr hne)⟩
  · have := keeps_says (hk k (by simp [k1, k2, k3, k4]))
    rw [says_of hs, says_of ho, this]
    simp [k1, k2, k3, k4]

theorem bareFields_of {orig name ver stdin : Bytes} {valid : Option (List GCAttachment)}
    (h : BareStdin orig name ver valid stdin) : BareFields orig (valid ≠ none) stdin := by
  obtain ⟨ms, M, ho, hs, -, -, -, hn, hv, hp, hp', hk⟩ := h
  intro k
  by_cases k1 : k = b!"name"
  · subst k1; exact ⟨fun _ => .inr (.inl rfl), fun _ => says_mem hs hn⟩
  by_cases k2 : k = b!"cniVersion"
  · subst k2; exact ⟨fun _ => .inr (.inr (.inl rfl)), fun _ => says_mem hs hv⟩
  by_cases k3 : k = b!"cni.dev/valid-attachments"
  · subst k3
    cases hpv : valid with
    | none =>
      have := keeps_says (hp' hpv).1
      rw [says_of hs, says_of ho, this]
      simp
    | some l => exact ⟨fun _ => .inr (.inr (.inr ⟨.inl rfl, by simp⟩)), fun _ => says_mem hs (hp l hpv).1⟩
  by_cases k4 : k = b!"cni.dev/attachments"
  · subst k4
    cases hpv : valid with
    | none =>
      have := keeps_says (hp' hpv).2
      rw [says_of hs, says_of ho, this]
      simp
    | some l => exact ⟨fun _ => .inr (.inr (.inr ⟨.inr rfl, by simp⟩)), fun _ => says_mem hs (hp l hpv).2⟩
  · have := keeps_says (hk k (by simp [k1, k2, k3, k4]))
    rw [says_of hs, says_of ho, this]
    simp [k1, k2, k3, k4]

theorem invoked_fields {c : CNIConfig} {verb name ver : Bytes} {rt : RuntimeConf} {p : PluginConfig} {prev : Option Result} {tr : Trace}
    {e : ExecEv} (h : Invoked c verb name ver rt p prev tr e) : AttachFields p.bytes (prev ≠ none) rt.capArgs e.stdin := by
  obtain ⟨doc, hd, hs⟩ := h.stdin
  have hf := attachFields_of hs
  have : (doc ≠ none) = (prev ≠ none) := by
    cases prev with
    | none => simp only [DocOf] at hd; simp [hd]
    | some r => obtain ⟨j, -, rfl⟩ := hd; simp
  rwa [this] at hf

theorem addChain_fields {c : CNIConfig} {name ver : Bytes} {rt : RuntimeConf} {ps : List PluginConfig} {tr : Trace} {rs : List Result}
    (h : AddChain c name ver rt ps none tr rs) (i : Nat) (e : ExecEv) (he : tr.execs[i]? = some e) :
    ∃ p, ps[i]? = some p ∧ AttachFields p.bytes (0 < i) rt.capArgs e.stdin := by
  obtain ⟨p, hp, hi⟩ := h.invoked i e he
  refine ⟨p, hp, ?_⟩
  have hf := invoked_fields hi
  have hlt := (List.getElem?_eq_some_iff.1 he).1
  have hm := h.atMostOneMore
  have : ((if i = 0 then none else rs[i - 1]?) ≠ none) = (0 < i) := by
    by_cases h0 : i = 0
    · simp [h0]
    · rw [if_neg h0, List.getElem?_eq_getElem (by omega)]
      simp; omega
  rwa [this] at hf

/-- ADD of a list: the `i`-th request has the fields of the `i`-th plugin's configuration, `name`, `cniVersion`, `runtimeConfig`
if the runtime supplies something the plugin enables, and `prevResult` unless it is the first; and no others. -/
theorem c75_add_list (c : CNIConfig) (list : NetConfList) (rt : RuntimeConf) (hrt : rt.OK) (fs fs' : FS) (tr : Trace)
    (o : Out (Option Result)) (h : Runs flt (c.addNetworkList list rt) fs tr fs' o) (i : Nat) (e : ExecEv)
    (he : tr.execs[i]? = some e) : ∃ p, list.plugins[i]? = some p ∧ AttachFields p.bytes (0 < i) rt.capArgs e.stdin := by
  obtain ⟨rs, hch, -⟩ := c12_add_list c list rt hrt fs fs' tr o h
  exact addChain_fields hch i e he

/-- ADD of a single network. -/
theorem c75_add_network (c : CNIConfig) (net : PluginConfig) (rt : RuntimeConf) (hrt : rt.OK) (fs fs' : FS) (tr : Trace)
    (o : Out Result) (h : Runs flt (c.addNetwork net rt) fs tr fs' o) (e : ExecEv)
    (he : e ∈ tr.execs) : AttachFields net.bytes False rt.capArgs e.stdin := by
  obtain ⟨rs, hch, -⟩ := c12_add_network c net rt hrt fs fs' tr o h
  obtain ⟨i, hi⟩ := List.getElem?_of_mem he
  obtain ⟨p, hp, hf⟩ := addChain_fields hch i e hi
  cases i with
  | zero => cases hp; simpa using hf
  | succ n => simp at hp

/-- CHECK of a list: the same, with `prevResult` in every request if a result is cached and in none otherwise. -/
theorem c75_check_list (c : CNIConfig) (list : NetConfList) (rt : RuntimeConf) (hrt : rt.OK) (fs fs' : FS) (tr : Trace)
    (o : Out Unit) (h : Runs flt (c.checkNetworkList list rt) fs tr fs' o) (hne : tr.execs ≠ []) :
    ∃ tr1 prev, Runs flt (c.getNetworkListCachedResult list rt) fs tr1 fs (.ok prev) ∧ ∀ (i : Nat) (e : ExecEv), tr.execs[i]? = some e →
      ∃ p, list.plugins[i]? = some p ∧ AttachFields p.bytes (prev ≠ none) rt.capArgs e.stdin := by
  obtain ⟨-, hv, hd, hc⟩ := c15_check_list c list rt hrt fs fs' tr o h
  by_cases ha : AtLeast list.cniVersion (0, 4, 0)
  · cases hdis : list.disableCheck with
    | true => exact absurd (hd ha hdis).1 hne
    | false =>
      rcases hc ha hdis with ⟨tr1, prev, h1, hsw, -⟩ | ⟨h0, -⟩
      · refine ⟨tr1, prev, h1, fun i e he => ?_⟩
        obtain ⟨p, hp, hi⟩ := hsw.invoked i e he
        exact ⟨p, hp, invoked_fields hi⟩
      · exact absurd h0 hne
  · exact absurd (hv ha).1 hne

/-- CHECK of a single network. -/
theorem c75_check_network (c : CNIConfig) (net : PluginConfig) (rt : RuntimeConf) (hrt : rt.OK) (fs fs' : FS) (tr : Trace)
    (o : Out Unit) (h : Runs flt (c.checkNetwork net rt) fs tr fs' o) (hne : tr.execs ≠ []) :
    ∃ tr1 prev, Runs flt (c.getNetworkCachedResult net rt) fs tr1 fs (.ok prev) ∧ ∀ e ∈ tr.execs,
      AttachFields net.bytes (prev ≠ none) rt.capArgs e.stdin := by
  obtain ⟨-, hv, hc⟩ := c15_check_network c net rt hrt fs fs' tr o h
  by_cases ha : AtLeast net.network.cniVersion (0, 4, 0)
  · rcases hc ha with ⟨tr1, prev, h1, hsw, -⟩ | ⟨h0, -⟩
    · refine ⟨tr1, prev, h1, fun e he => ?_⟩
      obtain ⟨i, hi⟩ := List.getElem?_of_mem he
      obtain ⟨p, hp, hv⟩ := hsw.invoked i e hi
      cases i with
      | zero => cases hp; exact invoked_fields hv
      | succ n => simp at hp
    · exact absurd h0 hne
  · exact absurd (hv ha).1 hne

/-- DEL of a list (from the last plugin to the first): `prevResult` is added to every request if the version is at least 0.4.0
and a result is cached, and to none otherwise. -/
theorem c75_del_list (c : CNIConfig) (list : NetConfList) (rt : RuntimeConf) (hrt : rt.OK) (fs fs' : FS) (tr : Trace)
    (o : Out Unit) (h : Runs flt (c.delNetworkList list rt) fs tr fs' o) (hne : tr.execs ≠ []) :
    ∃ prev : Option Result, ((¬ AtLeast list.cniVersion (0, 4, 0) ∧ prev = none) ∨ (AtLeast list.cniVersion (0, 4, 0) ∧
        ∃ tr1 o1, Runs flt (c.getNetworkListCachedResult list rt) fs tr1 fs o1 ∧ (o1 = .ok prev ∨ ((∃ g, o1 = .err g) ∧ prev = none)))) ∧
      ∀ (i : Nat) (e : ExecEv), tr.execs[i]? = some e →
        ∃ p, list.plugins.reverse[i]? = some p ∧ AttachFields p.bytes (prev ≠ none) rt.capArgs e.stdin := by
  rcases delNetworkList_runs hrt h with ⟨_, rfl, _⟩ | ⟨_, h0, _⟩ | ⟨prev, fs1, hsw, -, -, -, hp⟩
  · exact absurd rfl hne
  · exact absurd h0 hne
  · refine ⟨prev, ?_, fun i e he => ?_⟩
    · rcases hp with ⟨hv, -, hp, -⟩ | ⟨hv, tr1, o1, h1, ⟨hp, -⟩ | ⟨hg, hp, -⟩⟩
      · exact .inl ⟨hv, hp⟩
      · exact .inr ⟨hv, tr1, o1, h1, .inl hp⟩
      · exact .inr ⟨hv, tr1, o1, h1, .inr ⟨hg, hp⟩⟩
    · obtain ⟨p, hp, hi⟩ := hsw.invoked i e he
      exact ⟨p, hp, invoked_fields hi⟩

/-- DEL of a single network. -/
theorem c75_del_network (c : CNIConfig) (net : PluginConfig) (rt : RuntimeConf) (hrt : rt.OK) (fs fs' : FS) (tr : Trace)
    (o : Out Unit) (h : Runs flt (c.delNetwork net rt) fs tr fs' o) (hne : tr.execs ≠ []) :
    ∃ prev : Option Result, ((¬ AtLeast net.network.cniVersion (0, 4, 0) ∧ prev = none) ∨ (AtLeast net.network.cniVersion (0, 4, 0) ∧
        ∃ tr1, Runs flt (c.getNetworkCachedResult net rt) fs tr1 fs (.ok prev))) ∧
      ∀ e ∈ tr.execs, AttachFields net.bytes (prev ≠ none) rt.capArgs e.stdin := by
  rcases delNetwork_runs hrt h with ⟨h0, -⟩ | ⟨prev, hsw, -, -, -, hp⟩
  · exact absurd h0 hne
  · refine ⟨prev, hp, fun e he => ?_⟩
    obtain ⟨i, hi⟩ := List.getElem?_of_mem he
    obtain ⟨p, hp, hv⟩ := hsw.invoked i e hi
    cases i with
    | zero => cases hp; exact invoked_fields hv
    | succ n => simp at hp

theorem queried_fields {c : CNIConfig} {name ver : Bytes} {ps : List PluginConfig} {tr : Trace} {o : Out Unit}
    (h : Queried c name ver ps tr o) : ∀ (i : Nat) (e : ExecEv), tr.execs[i]? = some e →
      ∃ p, ps[i]? = some p ∧ BareFields p.bytes False e.stdin := by
  have bare : ∀ {p : PluginConfig} {stdin : Bytes}, BareStdin p.bytes name ver none stdin → BareFields p.bytes False stdin := by
    intro p stdin h
    simpa using bareFields_of h
  induction h with
  | nil => intro i e he; simp [Trace.execs] at he
  | unsound => intro i e he; simp [Trace.execs] at he
  | crash => intro i e he; simp [Trace.execs] at he
  | notFound => intro i e he; rw [execs_cons_find] at he; simp [Trace.execs] at he
  | @fails p ps stdin type path g ht hs =>
    intro i e he
    rw [execs_cons_find, execs_cons_exec] at he
    cases i with
    | zero => cases he; exact ⟨p, rfl, bare hs⟩
    | succ n => simp [Trace.execs] at he
  | @next p ps stdin type path out tr o ht hs h ih =>
    intro i e he
    rw [execs_cons_find, execs_cons_exec] at he
    cases i with
    | zero => cases he; exact ⟨p, rfl, bare hs⟩
    | succ n => exact ih n e he

/-- STATUS: the fields are those of the plugin's configuration, `name` and `cniVersion`. -/
theorem c75_status (c : CNIConfig) (list : NetConfList) (fs fs' : FS) (tr : Trace) (o : Out Unit)
    (h : Runs flt (c.getStatusNetworkList list) fs tr fs' o) (i : Nat) (e : ExecEv) (he : tr.execs[i]? = some e) :
    ∃ p, list.plugins[i]? = some p ∧ BareFields p.bytes False e.stdin := by
  by_cases hv : AtLeast list.cniVersion (1, 1, 0)
  · exact queried_fields (c25_status c list hv fs fs' tr o h).2 i e he
  · have := (c25_old c list hv fs fs' tr o h)
    simp [this.1, Trace.execs] at he

theorem asks_fields {c : CNIConfig} {verb name ver : Bytes} {valid : Option (List GCAttachment)} {ps : List PluginConfig} {tr : Trace}
    {gs : List (Option GoErr)} (h : Asks c verb name ver valid ps tr gs) :
    ∀ e ∈ tr.execs, ∃ p ∈ ps, BareFields p.bytes (valid ≠ none) e.stdin := by
  induction h with
  | nil => intro e he; simp [Trace.execs] at he
  | notFound h ih =>
    intro e he
    rw [execs_cons_find] at he
    obtain ⟨p, hp, hf⟩ := ih e he
    exact ⟨p, List.mem_cons_of_mem _ hp, hf⟩
  | @asked p ps stdin path r tr gs hs h ih =>
    intro e he
    rw [execs_cons_find, execs_cons_exec] at he
    rcases List.mem_cons.1 he with rfl | he
    · exact ⟨p, List.mem_cons_self, bareFields_of hs⟩
    · obtain ⟨p, hp, hf⟩ := ih e he
      exact ⟨p, List.mem_cons_of_mem _ hp, hf⟩

theorem dels_command {flt : Bool} {c : CNIConfig} {list : NetConfList} {l : List Attachment} {fs fs' : FS} {tr : Trace} {os : List (Out Unit)}
    (hok : ∀ a ∈ l, (rtOf a).OK) (h : Dels flt c list l fs tr fs' os) : ∀ e ∈ tr.execs, ∃ a, e.args = .args a ∧ a.command = b!"DEL" := by
  induction h with
  | nil fs => intro e he; simp [Trace.execs] at he
  | @cons a l fs fs1 fs2 tr1 tr2 o os h hl ih =>
    intro e he
    rw [execs_append, List.mem_append] at he
    rcases he with he | he
    · obtain ⟨i, hi⟩ := List.getElem?_of_mem he
      rcases delNetworkList_runs (hok a (by simp)) h with ⟨_, rfl, _⟩ | ⟨_, h0, _⟩ | ⟨prev, fs1, hsw, -⟩
      · simp [Trace.execs] at he
      · rw [h0] at he; simp at he
      · obtain ⟨p, -, hv⟩ := hsw.invoked i e hi
        exact ⟨_, hv.args, rfl⟩
    · exact ih (fun a ha => hok a (List.mem_cons_of_mem _ ha)) e he

theorem listed_ok {c : CNIConfig} {fs : FS} {keep : Attachment → Prop} {names : List Bytes} {l : List Attachment}
    (h : Listed c fs keep names l) : ∀ a ∈ l, (rtOf a).OK := by
  intro a ha
  have : some a ∈ l.map some := List.mem_map_of_mem ha
  rw [← h.same] at this
  obtain ⟨n, -, hn⟩ := List.mem_map.1 this
  exact (attachmentIn_ok hn).1

/-- GC: the fields of a GC request are those of the plugin's configuration, `name`, `cniVersion` and, if valid attachments are
given, `cni.dev/valid-attachments`, which SPEC.md asks for, and `cni.dev/attachments`, which it does not. -/
theorem c75_gc (c : CNIConfig) (list : NetConfList) (valid : Option (List GCAttachment)) (hs : ∀ p ∈ list.plugins, Sound p)
    (hd : list.disableGC = false) (fs fs' : FS) (tr : Trace) (o : Out Unit)
    (h : Runs false (c.gcNetworkList list valid) fs tr fs' o) (e : ExecEv) (he : e ∈ tr.execs) (a : Args) (ha : e.args = .args a)
    (hc : a.command = b!"GC") : ∃ p ∈ list.plugins, BareFields p.bytes (valid ≠ none) e.stdin := by
  have key : ∀ {l fs trd os}, (∀ a ∈ l, (rtOf a).OK) → Dels false c list l fs trd fs' os → e ∉ trd.execs := by
    intro l fs trd os hok hdel hm
    obtain ⟨a', ha', hc'⟩ := dels_command hok hdel e hm
    rw [ha] at ha'; cases ha'
    rw [hc] at hc'; exact absurd hc' (by decide)
  obtain ⟨names, stale, hl, ⟨tr0, trd, trg, os, gs, rfl, h0, hdel, hask, hno, -⟩ | ⟨-, tr0, trd, l, os, rfl, h0, hpre, hdel, -⟩⟩ :=
    c23_gc c list valid hs hd fs fs' tr o h
  · have hok := listed_ok hl
    rw [execs_append, execs_append, h0] at he
    simp only [List.nil_append, List.mem_append] at he
    rcases he with he | he
    · exact absurd he (key hok hdel)
    · by_cases hv : AtLeast list.cniVersion (1, 1, 0)
      · exact asks_fields (hask hv) e he
      · rw [(hno hv).1] at he; simp [Trace.execs] at he
  · have hok : ∀ a ∈ l, (rtOf a).OK := fun a ha => listed_ok hl a (hpre.subset ha)
    rw [execs_append, h0] at he
    exact absurd (by simpa using he) (key hok hdel)

/-! ### against SPEC.md -/

/-- A request obeys the rules of SPEC.md on `capabilities` and `prevResult` exactly when the configuration has no `capabilities`
and, if there is no previous result, no `prevResult`: libcni removes neither. -/
theorem c75_rules (conf stdin : Bytes) (prev : Prop) (args : GoMap Json) (h : AttachFields conf prev args stdin) :
    FieldRules prev stdin ↔ ¬ Says conf b!"capabilities" ∧ (¬ prev → ¬ Says conf b!"prevResult") := by
  unfold FieldRules
  rw [h b!"capabilities", h b!"prevResult"]
  have e1 : (b!"capabilities" : Bytes) ≠ b!"name" := by decide
  have e2 : (b!"capabilities" : Bytes) ≠ b!"cniVersion" := by decide
  have e3 : (b!"capabilities" : Bytes) ≠ b!"prevResult" := by decide
  have e4 : (b!"capabilities" : Bytes) ≠ b!"runtimeConfig" := by decide
  have f1 : (b!"prevResult" : Bytes) ≠ b!"name" := by decide
  have f2 : (b!"prevResult" : Bytes) ≠ b!"cniVersion" := by decide
  have f4 : (b!"prevResult" : Bytes) ≠ b!"runtimeConfig" := by decide
  simp only [e1, e2, e3, e4, f1, f2, f4, false_or, or_false, false_and, true_and]
  constructor
  · exact fun ⟨h1, h2⟩ => ⟨h1, fun hp hs => h2 hp (.inl hs)⟩
  · exact fun ⟨h1, h2⟩ => ⟨h1, fun hp hs => hs.elim (h2 hp) hp⟩

/-- ADD of a list obeys the rules in its `i`-th request exactly when the `i`-th configuration lets it. -/
theorem c75_add_rules (c : CNIConfig) (list : NetConfList) (rt : RuntimeConf) (hrt : rt.OK) (fs fs' : FS) (tr : Trace)
    (o : Out (Option Result)) (h : Runs flt (c.addNetworkList list rt) fs tr fs' o) (i : Nat) (e : ExecEv)
    (he : tr.execs[i]? = some e) : ∃ p, list.plugins[i]? = some p ∧
      (FieldRules (0 < i) e.stdin ↔ ¬ Says p.bytes b!"capabilities" ∧ (i = 0 → ¬ Says p.bytes b!"prevResult")) := by
  obtain ⟨p, hp, hf⟩ := c75_add_list c list rt hrt fs fs' tr o h i e he
  refine ⟨p, hp, (c75_rules _ _ _ _ hf).trans ?_⟩
  simp

/-! ### concrete cases -/

namespace Example

/-- A configuration with everything in it. Test data; models no code. -/
def plugFull : PluginConfig :=
  { network := { type := b!"a", capabilities := [(b!"mac", true)] },
    bytes := b!"{\"type\":\"a\",\"capabilities\":{\"mac\":true},\"prevResult\":{},\"x\":1}" }
/-- Test data; models no code. -/
def listFull : NetConfList := { list with plugins := [plugFull, plugB] }
/-- Test data; models no code. -/
def rtMac : RuntimeConf := { rt with capArgs := [(b!"mac", .str b!"m")] }

theorem rtMac_ok : rtMac.OK := ⟨by simp [rtMac, rt, GoMap.Sorted], by simp [rtMac, Json.NumsOK]⟩

/-- An ADD with two requests: the first has `capabilities` and, although nothing came before, `prevResult`. -/
theorem add_full : ∃ tr fs' o, Runs false (cfg.addNetworkList listFull rtMac) noFiles tr fs' o ∧
    tr.execs.map (fun e => e.stdin) =
      [b!"{\"capabilities\":{\"mac\":true},\"cniVersion\":\"1.0.0\",\"name\":\"net\",\"prevResult\":{},\"runtimeConfig\":{\"mac\":\"m\"},\"type\":\"a\",\"x\":1}",
       b!"{\"cniVersion\":\"1.0.0\",\"name\":\"net\",\"prevResult\":{\"cniVersion\":\"1.0.0\",\"ips\":[{\"address\":\"10.0.0.1/24\"}]},\"type\":\"b\"}"] :=
  Prog.interp_exists (find := find) (exec := good) (fun tr _ _ => tr.execs.map (fun e => e.stdin)) (by decide +kernel)

/-- So the first request breaks both rules of SPEC.md, the second none. -/
example : ∃ tr fs' o, Runs false (cfg.addNetworkList listFull rtMac) noFiles tr fs' o ∧
    (∀ e, tr.execs[0]? = some e → Says e.stdin b!"capabilities" ∧ Says e.stdin b!"prevResult" ∧ ¬ FieldRules (0 < 0) e.stdin) ∧
    (∀ e, tr.execs[1]? = some e → FieldRules (0 < 1) e.stdin) ∧ tr.execs.length = 2 := by
  obtain ⟨tr, fs', o, h, hs⟩ := add_full
  have hparse : ∃ ms, Json.parse plugFull.bytes = some (.obj ms) ∧ (∃ v, (b!"capabilities", v) ∈ ms) ∧ ∃ v, (b!"prevResult", v) ∈ ms :=
    ⟨[(b!"type", .str b!"a"), (b!"capabilities", .obj [(b!"mac", .bool true)]), (b!"prevResult", .obj []), (b!"x", .num b!"1")],
      by decide +kernel, ⟨_, by simp; rfl⟩, ⟨_, by simp; rfl⟩⟩
  obtain ⟨ms, hp, ⟨v, hv⟩, ⟨w, hw⟩⟩ := hparse
  refine ⟨tr, fs', o, h, fun e he => ?_, fun e he => ?_, ?_⟩
  · obtain ⟨p, hpl, hf⟩ := c75_add_list cfg listFull rtMac rtMac_ok noFiles fs' tr o h 0 e he
    cases hpl
    have h1 := (hf b!"capabilities").2 (.inl (says_mem hp hv))
    exact ⟨h1, (hf b!"prevResult").2 (.inl (says_mem hp hw)), fun hr => hr.1 h1⟩
  · obtain ⟨p, hpl, hr⟩ := c75_add_rules cfg listFull rtMac rtMac_ok noFiles fs' tr o h 1 e he
    cases hpl
    refine hr.2 ⟨?_, by simp⟩
    rintro ⟨ms, hm, hk⟩
    have : Json.parse plugB.bytes = some (.obj [(b!"type", .str b!"b")]) := by decide +kernel
    rw [this] at hm; cases hm
    exact hk (by simp [NoMember])
  · have := congrArg List.length hs
    simpa using this

end Example

end Verif
