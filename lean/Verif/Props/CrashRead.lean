/- C48: what can be done with what a crash leaves. -/
import Verif.Props.Crash
import Verif.Props.Panic

namespace Verif
open Spec
set_option linter.unusedSimpArgs false

variable {flt : Bool} {fs fs' : FS} {tr : Trace}

theorem cachedInfo_numsOK {result : Option Result} {config name : Bytes} {rt : RuntimeConf} {info : CachedInfo} (hrt : rt.OK)
    (h : cachedInfoOf result config name rt = some info) : info.json.NumsOK := by
  obtain ⟨raw, doc, rfl, -, -, -, hraw⟩ := cachedInfoOf_spec h
  refine CachedInfo.json_numsOK (numsOKMembers_iff.2 hrt.nums) ?_
  cases raw with
  | none => trivial
  | some m => exact (normal_obj (hraw m rfl)).choose_spec.2.2.2

theorem cachedInfo_torn {result : Option Result} {config name b : Bytes} {rt : RuntimeConf} {info : CachedInfo} (hrt : rt.OK)
    (h : cachedInfoOf result config name rt = some info) (ht : Torn info.json.print b) : Json.parse b = none := by
  obtain ⟨n, hn, rfl⟩ := ht
  have := cachedInfo_numsOK hrt h
  exact Json.parse_print_take_clean this hn

theorem stores_info {c : CNIConfig} {rt : RuntimeConf} {content name : Bytes} (hrt : rt.OK) (h : Stores c rt content name) :
    PlainNames name rt ∧ ∃ r config info, WellTyped r ∧ cachedInfoOf (some r) config name rt = some info ∧ content = info.json.print := by
  cases h with
  | list h hc =>
    obtain ⟨hw, hpl, info, hi, rfl⟩ := addNetworkList_stored hrt h
    rw [FS.set_same] at hc
    exact ⟨hpl, _, _, info, hw, hi, (Option.some.inj hc).symm⟩
  | network h hc =>
    obtain ⟨hw, hpl, info, hi, rfl⟩ := addNetwork_stored hrt h
    rw [FS.set_same] at hc
    exact ⟨hpl, _, _, info, hw, hi, (Option.some.inj hc).symm⟩

/-- A torn copy of what ADD stores is not a JSON document. -/
theorem torn_parse {c : CNIConfig} {rt : RuntimeConf} {content name b : Bytes} (hrt : rt.OK) (h : Stores c rt content name)
    (ht : Torn content b) : Json.parse b = none := by
  obtain ⟨-, r, config, info, -, hi, rfl⟩ := stores_info hrt h
  exact cachedInfo_torn hrt hi ht

theorem readCachedInfo_bad {b : Bytes} (h : Json.parse b = none) : readCachedInfo b = none := by
  unfold readCachedInfo; rw [h]; rfl

theorem cachedResultOf_bad {b ver : Bytes} (h : Json.parse b = none) : ∃ g, cachedResultOf ver (some b) = .err g := by
  unfold cachedResultOf currentFormat
  simp only [readCachedInfo_bad h]
  unfold loadResult createFromBytes decodeVersion
  rw [h]
  exact ⟨_, rfl⟩

theorem cachedConfigOf_bad {b : Bytes} {rt : RuntimeConf} (h : Json.parse b = none) : ∃ g, cachedConfigOf rt (some b) = .err g := by
  unfold cachedConfigOf
  simp only [readCachedInfo_bad h]
  exact ⟨_, rfl⟩

theorem entryOf_bad {b : Bytes} (h : Json.parse b = none) : entryOf b = none := by
  unfold entryOf; rw [readCachedInfo_bad h]; rfl

theorem holdsNull_bad {b : Bytes} (h : Json.parse b = none) : ¬ HoldsNull b := by
  rintro ⟨r, ⟨info, ⟨hi, -⟩, -⟩ | ⟨-, hc⟩, -⟩
  · rw [readCachedInfo_bad h] at hi; cases hi
  · unfold createFromBytes decodeVersion at hc
    rw [h] at hc
    cases hc

/-! ### every reader rejects a torn entry -/

/-- If the file of the attachment holds a torn copy of what an ADD stores (under the same file name, for whichever network,
container and interface), reading the cached result or configuration for the attachment, for a list or a single network of
whatever version, gives an error. If files may fail to be read, it gives an error or nothing, but never a result. -/
theorem c48_torn_rejected (c0 : CNIConfig) (rt0 : RuntimeConf) (hrt0 : rt0.OK) (content name b : Bytes) (hst : Stores c0 rt0 content name)
    (ht : Torn content b) (c : CNIConfig) (rt : RuntimeConf) (fs : FS) :
    (∀ list : NetConfList, PlainNames list.name rt → fs (entryPath c list.name rt) = some b → ∀ flt tr fs' o,
      Runs flt (c.getNetworkListCachedResult list rt) fs tr fs' o →
        fs' = fs ∧ tr.execs = [] ∧ (flt = false → ∃ g, o = .err g) ∧ ((∃ g, o = .err g) ∨ o = .ok none)) ∧
    (∀ net : PluginConfig, PlainNames net.network.name rt → fs (entryPath c net.network.name rt) = some b → ∀ flt tr fs' o,
      Runs flt (c.getNetworkCachedResult net rt) fs tr fs' o →
        fs' = fs ∧ tr.execs = [] ∧ (flt = false → ∃ g, o = .err g) ∧ ((∃ g, o = .err g) ∨ o = .ok none)) ∧
    (∀ list : NetConfList, PlainNames list.name rt → fs (entryPath c list.name rt) = some b → ∀ flt tr fs' o,
      Runs flt (c.getNetworkListCachedConfig list rt) fs tr fs' o →
        fs' = fs ∧ tr.execs = [] ∧ (flt = false → ∃ g, o = .err g) ∧ ((∃ g, o = .err g) ∨ o = .ok none)) ∧
    (∀ net : PluginConfig, PlainNames net.network.name rt → fs (entryPath c net.network.name rt) = some b → ∀ flt tr fs' o,
      Runs flt (c.getNetworkCachedConfig net rt) fs tr fs' o →
        fs' = fs ∧ tr.execs = [] ∧ (flt = false → ∃ g, o = .err g) ∧ ((∃ g, o = .err g) ∨ o = .ok none)) := by
  have hb := torn_parse hrt0 hst ht
  have res : ∀ {name ver : Bytes}, PlainNames name rt → fs (entryPath c name rt) = some b → ∀ {flt tr fs' o},
      Runs flt (c.getCachedResult name ver rt) fs tr fs' o →
        fs' = fs ∧ tr.execs = [] ∧ (flt = false → ∃ g, o = .err g) ∧ ((∃ g, o = .err g) ∨ o = .ok none) := by
    intro name ver hn hf flt tr fs' o h
    obtain ⟨h1, h2, h3, h4, -⟩ := runs_getCachedResult h
    have hp := cachePath_eq (c := c) hn
    refine ⟨h1, h2, fun hflt => ?_, ?_⟩
    · rw [h3 hflt _ hp, hf]; exact cachedResultOf_bad hb
    · rcases h4 _ hp with h4 | h4
      · rw [h4, hf]; exact .inl (cachedResultOf_bad hb)
      · exact .inr h4
  have conf : ∀ {name : Bytes}, PlainNames name rt → fs (entryPath c name rt) = some b → ∀ {flt tr fs' o},
      Runs flt (c.getCachedConfig name rt) fs tr fs' o →
        fs' = fs ∧ tr.execs = [] ∧ (flt = false → ∃ g, o = .err g) ∧ ((∃ g, o = .err g) ∨ o = .ok none) := by
    intro name hn hf flt tr fs' o h
    obtain ⟨h1, h2, h3, h4, -⟩ := runs_getCachedConfig h
    have hp := cachePath_eq (c := c) hn
    refine ⟨h1, h2, fun hflt => ?_, ?_⟩
    · rw [h3 hflt _ hp, hf]; exact cachedConfigOf_bad hb
    · rcases h4 _ hp with h4 | h4
      · rw [h4, hf]; exact .inl (cachedConfigOf_bad hb)
      · exact .inr h4
  exact ⟨fun l hn hf _ _ _ _ h => res hn hf h, fun n hn hf _ _ _ _ h => res hn hf h, fun l hn hf _ _ _ _ h => conf hn hf h,
    fun n hn hf _ _ _ _ h => conf hn hf h⟩

/-- The listing is determined by the entries. -/
theorem listing_same {c : CNIConfig} {cid : Bytes} {fs2 fs2' : FS} {tr2 : Trace} {o o2 : Out (List Attachment)}
    (he : ∀ n, attachmentIn c fs2 n = attachmentIn c fs n)
    (h : Runs false (c.getCachedAttachments cid) fs tr fs' o) (h2 : Runs false (c.getCachedAttachments cid) fs2 tr2 fs2' o2) : o2 = o := by
  obtain ⟨-, -, names, hs, hc, hall, rfl⟩ := getCachedAttachments_runs h
  obtain ⟨-, -, names2, hs2, hc2, hall2, rfl⟩ := getCachedAttachments_runs h2
  have hp : pick c fs2 cid = pick c fs cid := by
    funext n; unfold pick; rw [he]
  rw [hp]
  have hsome : ∀ n, (pick c fs cid n).isSome = true → attachmentIn c fs n ≠ none := by
    intro n hn h0
    unfold pick at hn
    rw [h0] at hn
    split at hn <;> cases hn
  have key : ∀ l : List Bytes, l.filterMap (pick c fs cid) = (l.filter fun n => (pick c fs cid n).isSome).filterMap (pick c fs cid) := by
    intro l
    induction l with
    | nil => rfl
    | cons n l ih =>
      cases hn : pick c fs cid n with
      | none => simp [List.filterMap_cons, List.filter_cons, hn, ih]
      | some a => simp [List.filterMap_cons, List.filter_cons, hn, ih]
  rw [key names, key names2]
  congr 2
  refine sorted_ext _ _ (hs2.filter _) (hs.filter _) fun n => ?_
  rw [List.mem_filter, List.mem_filter]
  constructor
  · rintro ⟨a, b⟩; exact ⟨hall n (hc2 n a) (hsome n b), b⟩
  · rintro ⟨a, b⟩; exact ⟨hall2 n (hc n a) (by rw [he]; exact hsome n b), b⟩

/-- A torn entry is skipped when attachments are listed: the listing is the same as if its file did not exist. In particular GC,
which goes by that listing, does not act on it. -/
theorem c48_torn_listing (c0 : CNIConfig) (rt0 : RuntimeConf) (hrt0 : rt0.OK) (content name b p : Bytes) (hst : Stores c0 rt0 content name)
    (ht : Torn content b) (c : CNIConfig) (cid : Bytes) (fs fs1 fs2 : FS) (hf : fs p = some b) (tr1 tr2 : Trace) (o1 o2 : Out (List Attachment))
    (h1 : Runs false (c.getCachedAttachments cid) fs tr1 fs1 o1)
    (h2 : Runs false (c.getCachedAttachments cid) (fs.set p none) tr2 fs2 o2) : o1 = o2 ∧ fs1 = fs ∧ ∃ l, o1 = .ok l := by
  have hb := torn_parse hrt0 hst ht
  obtain ⟨hfs, -, ns, -, -, -, hok⟩ := getCachedAttachments_runs h1
  refine ⟨listing_same (fun n => ?_) h2 h1, hfs, _, hok⟩
  unfold attachmentIn
  by_cases hn : childPath (resultsDir c) n = p
  · rw [hn, hf, FS.set_same, Option.bind_some, entryOf_bad hb]; rfl
  · rw [FS.set_other _ _ hn]

/-! ### what operations do with it -/

/-- DEL of a list recovers: whatever the version (if it is one), all the plugins are executed in reverse order until one fails,
without a previous result; the operation succeeds exactly if they all do, and no torn file is left then. For a version of at
least 0.4.0 the torn file is gone even if a plugin fails. -/
theorem c48_recover_list (c0 : CNIConfig) (rt0 : RuntimeConf) (hrt0 : rt0.OK) (content name b : Bytes) (hst : Stores c0 rt0 content name)
    (ht : Torn content b) (c : CNIConfig) (list : NetConfList) (rt : RuntimeConf) (hrt : rt.OK) (hn : PlainNames list.name rt)
    (fs fs' : FS) (hf : fs (entryPath c list.name rt) = some b) (tr : Trace) (o : Out Unit) (hv : ∃ p, Reads list.cniVersion p)
    (h : Runs false (c.delNetworkList list rt) fs tr fs' o) :
    Sweep c b!"DEL" list.name list.cniVersion rt list.plugins.reverse none tr ∧
      (o = .ok () ↔ AllSucceeded list.plugins tr) ∧ ((∀ p ∈ list.plugins, IsObject p) → o ≠ .panic) ∧ (o = .ok () → fs' (entryPath c list.name rt) = none) ∧
      (AtLeast list.cniVersion (0, 4, 0) → fs' (entryPath c list.name rt) = none) ∧
      ∀ q, q ≠ entryPath c list.name rt → fs' q = fs q := by
  have hb := torn_parse hrt0 hst ht
  have hp := cachePath_eq (c := c) hn
  have hbad : ∀ {tr1 o1}, Runs false (c.getNetworkListCachedResult list rt) fs tr1 fs o1 → ∃ g, o1 = .err g := by
    intro tr1 o1 h1
    exact ((c48_torn_rejected c0 rt0 hrt0 content name b hst ht c rt fs).1 list hn hf _ _ _ _ h1).2.2.1 rfl
  have hfr : ∀ q, q ≠ entryPath c list.name rt → fs' q = fs q := fun q hq =>
    Classical.byContradiction fun h0 => hq (c14_del_files c list rt hrt hn fs fs' tr o h q h0).1
  rcases delNetworkList_runs hrt h with ⟨hv', -⟩ | ⟨hpan, -⟩ | ⟨prev, fs1, hsw, hiff, hlast, hfs', hprev⟩
  · exact absurd hv hv'
  · obtain ⟨g, hg⟩ := hbad hpan; cases hg
  · have hnp : (∀ p ∈ list.plugins, IsObject p) → o ≠ .panic := by
      intro ho he; subst he
      obtain ⟨p, b', hp', hb', hnull⟩ := c50_del c list rt ho fs fs' tr h
      rw [hp] at hp'; cases hp'
      rw [hf] at hb'; cases hb'
      exact holdsNull_bad hb hnull
    have hp0 : prev = none := by
      rcases hprev with ⟨-, -, h0, -⟩ | ⟨-, tr1, o1, h1, ⟨rfl, -⟩ | ⟨-, h0, -⟩⟩
      · exact h0
      · obtain ⟨g, hg⟩ := hbad h1; cases hg
      · exact h0
    subst hp0
    refine ⟨hsw, hiff, hnp, fun ho => ?_, fun ha => ?_, hfr⟩
    · subst ho; exact c14_del_removes c list rt hrt hn fs fs' tr h
    · have h1 : fs1 (entryPath c list.name rt) = none := by
        rcases hprev with ⟨hna, -⟩ | ⟨-, tr1, o1, h1, ⟨rfl, -⟩ | ⟨-, -, ⟨rfl, hx⟩ | ⟨p, hp', rfl⟩⟩⟩
        · exact absurd ha hna
        · obtain ⟨g, hg⟩ := hbad h1; cases hg
        · exact hx rfl _ hp
        · rw [hp] at hp'; cases hp'; exact FS.set_same ..
      rcases hfs' with ⟨rfl, -⟩ | ⟨-, p, hp', rfl⟩
      · exact h1
      · rw [hp] at hp'; cases hp'; exact FS.set_same ..

/-- The other operations that need the cached result do not recover by themselves: while the torn file is there, DEL of a single
network, and CHECK of a list or of a network, from version 0.4.0 on fail, whatever the plugins would do: none is executed, and the
file stays. -/
theorem c48_stuck (c0 : CNIConfig) (rt0 : RuntimeConf) (hrt0 : rt0.OK) (content name b : Bytes) (hst : Stores c0 rt0 content name)
    (ht : Torn content b) (c : CNIConfig) (rt : RuntimeConf) (hrt : rt.OK) (fs : FS) :
    (∀ net : PluginConfig, PlainNames net.network.name rt → AtLeast net.network.cniVersion (0, 4, 0) →
      fs (entryPath c net.network.name rt) = some b → ∀ tr fs' o, Runs false (c.delNetwork net rt) fs tr fs' o →
        (∀ x, o ≠ .ok x) ∧ tr.execs = [] ∧ fs' = fs) ∧
    (∀ net : PluginConfig, PlainNames net.network.name rt → AtLeast net.network.cniVersion (0, 4, 0) →
      fs (entryPath c net.network.name rt) = some b → ∀ tr fs' o, Runs false (c.checkNetwork net rt) fs tr fs' o →
        (∀ x, o ≠ .ok x) ∧ tr.execs = [] ∧ fs' = fs) ∧
    (∀ list : NetConfList, PlainNames list.name rt → AtLeast list.cniVersion (0, 4, 0) → list.disableCheck = false →
      fs (entryPath c list.name rt) = some b → ∀ tr fs' o, Runs false (c.checkNetworkList list rt) fs tr fs' o →
        (∀ x, o ≠ .ok x) ∧ tr.execs = [] ∧ fs' = fs) := by
  have hrej := c48_torn_rejected c0 rt0 hrt0 content name b hst ht c rt fs
  refine ⟨fun net hn ha hf tr fs' o h => ?_, fun net hn ha hf tr fs' o h => ?_, fun list hn ha hd hf tr fs' o h => ?_⟩
  · rcases delNetwork_runs hrt h with ⟨h1, h2, h3, -⟩ | ⟨prev, -, -, -, -, ⟨h0, -⟩ | ⟨-, tr1, h1⟩⟩
    · exact ⟨h3, h1, h2⟩
    · exact absurd ha h0
    · obtain ⟨g, hg⟩ := (hrej.2.1 net hn hf _ _ _ _ h1).2.2.1 rfl
      cases hg
  · obtain ⟨h1, -, h3⟩ := c15_check_network c net rt hrt fs fs' tr o h
    rcases h3 ha with ⟨tr1, prev, h2, -⟩ | ⟨h2, h3, -⟩
    · obtain ⟨g, hg⟩ := (hrej.2.1 net hn hf _ _ _ _ h2).2.2.1 rfl
      cases hg
    · exact ⟨h3, h2, h1⟩
  · obtain ⟨h1, -, -, h3⟩ := c15_check_list c list rt hrt fs fs' tr o h
    rcases h3 ha hd with ⟨tr1, prev, h2, -⟩ | ⟨h2, h3, -⟩
    · obtain ⟨g, hg⟩ := (hrej.1 list hn hf _ _ _ _ h2).2.2.1 rfl
      cases hg
    · exact ⟨h3, h2, h1⟩

/-! ### histories with failures and crashes -/

theorem Runs.crash {α : Type} {p : Prog α} {o : Out α} (h : Runs flt p fs tr fs' o) : Crash flt p fs tr fs' := by
  induction h with
  | done => exact .now _ _
  | op hs _ ih => exact .step hs ih

theorem crash_reply {α β : Type} {p : Prog α} {f : α → Out β} (h : Crash flt (p.bind fun r => .done (f r)) fs tr fs') :
    Crash flt p fs tr fs' := by
  rcases crash_bind h with h | ⟨a, tr1, tr2, fs1, rfl, h1, h2⟩
  · exact h
  · obtain ⟨rfl, rfl⟩ := crash_done h2
    rw [List.append_nil]
    exact h1.crash

/-- The operations that do not change the cache leave it alone wherever they are interrupted. -/
theorem c48_readonly (op : ApiOp) (ha : op.added = none) (hd : op.isDel = false) (fs fs' : FS) (tr : Trace)
    (h : Crash flt op.call fs tr fs') : fs' = fs := by
  have at_ro : ∀ {q : Out Bytes} {a : Act}, (∃ p, q = .ok p ∧ a = .readFile p) → a.writes = none := by
    rintro q a ⟨p, -, rfl⟩; rfl
  cases op with
  | add => cases ha
  | addNetwork => cases ha
  | del => cases hd
  | delNetwork => cases hd
  | check c l rt =>
    exact (checkNetworkList_acts.mono fun a h => h.elim (fun h => h.readonly) at_ro).crash_readonly (crash_reply h)
  | checkNetwork c n rt =>
    exact (checkNetwork_acts.mono fun a h => h.elim (fun h => h.readonly) at_ro).crash_readonly (crash_reply h)
  | cachedResult c l rt =>
    exact (getCachedResult_looks.mono fun a ⟨p, hp, _⟩ => by rw [hp]; rfl).crash_readonly (crash_reply h)
  | cachedConfig c l rt =>
    exact (getCachedConfig_looks.mono fun a ⟨p, hp, _⟩ => by rw [hp]; rfl).crash_readonly (crash_reply h)

/-- After any history of operations, whatever file operations failed and wherever the runtime crashed, every file is as it was at
the start, or absent, or holds what some ADD of the history stores for the attachment whose file it is, whole or broken off. -/
theorem c48_history (ops : List ApiOp) (fs fs' : FS) (h : RoughHistory ops fs fs') (hp : ∀ op ∈ ops, op.Proper)
    (hl : ∀ op ∈ ops, ∀ c l rt, op = .add c l rt → l.plugins ≠ []) (q : Bytes) :
    fs' q = fs q ∨ fs' q = none ∨
      ∃ op ∈ ops, op.added ≠ none ∧ op.key = q ∧ ∃ content, Stores op.cfg op.rt content op.name ∧
        (fs' q = some content ∨ ∃ b, Torn content b ∧ fs' q = some b) := by
  have step : ∀ {op : ApiOp} {fs fs1 : FS} {tr : Trace}, op.Proper → (∀ c l rt, op = .add c l rt → l.plugins ≠ []) →
      Crash true op.call fs tr fs1 → fs1 q = fs q ∨ fs1 q = none ∨
        (op.added ≠ none ∧ op.key = q ∧ ∃ content, Stores op.cfg op.rt content op.name ∧
          (fs1 q = some content ∨ ∃ b, Torn content b ∧ fs1 q = some b)) := by
    intro op fs fs1 tr hp hl h
    cases op with
    | add c l rt =>
      obtain ⟨h1, h2⟩ := c48_add_list c l rt hp.ok (hl _ _ _ rfl) _ _ _ (crash_reply h)
      by_cases hq : q = entryPath c l.name rt
      · subst hq
        rcases h2 with h2 | ⟨tr1, fs2, r, content, hr, -, hc, h2 | h2 | ⟨b, hb, h2⟩⟩
        · exact .inl h2
        · exact .inl h2
        · exact .inr (.inr ⟨by simp [ApiOp.added], rfl, content, .list hr hc, .inl h2⟩)
        · exact .inr (.inr ⟨by simp [ApiOp.added], rfl, content, .list hr hc, .inr ⟨b, hb, h2⟩⟩)
      · exact .inl (h1 q hq)
    | addNetwork c n rt =>
      obtain ⟨h1, h2⟩ := c48_add_network c n rt hp.ok _ _ _ (crash_reply h)
      by_cases hq : q = entryPath c n.network.name rt
      · subst hq
        rcases h2 with h2 | ⟨tr1, fs2, r, content, hr, -, hc, h2 | h2 | ⟨b, hb, h2⟩⟩
        · exact .inl h2
        · exact .inl h2
        · exact .inr (.inr ⟨by simp [ApiOp.added], rfl, content, .network hr hc, .inl h2⟩)
        · exact .inr (.inr ⟨by simp [ApiOp.added], rfl, content, .network hr hc, .inr ⟨b, hb, h2⟩⟩)
      · exact .inl (h1 q hq)
    | del c l rt =>
      obtain ⟨h1, h2⟩ := c48_del_list c l rt hp.ok hp.names _ _ _ (crash_reply h)
      by_cases hq : q = entryPath c l.name rt
      · subst hq
        exact h2.imp id fun h => .inl h.1
      · exact .inl (h1 q hq)
    | delNetwork c n rt =>
      obtain ⟨h1, h2⟩ := c48_del_network c n rt hp.ok hp.names _ _ _ (crash_reply h)
      by_cases hq : q = entryPath c n.network.name rt
      · subst hq
        exact h2.imp id fun h => .inl h.1
      · exact .inl (h1 q hq)
    | check c l rt => exact .inl (by rw [c48_readonly _ rfl rfl _ _ _ h])
    | checkNetwork c l rt => exact .inl (by rw [c48_readonly _ rfl rfl _ _ _ h])
    | cachedResult c l rt => exact .inl (by rw [c48_readonly _ rfl rfl _ _ _ h])
    | cachedConfig c l rt => exact .inl (by rw [c48_readonly _ rfl rfl _ _ _ h])
  have both : ∀ {op : ApiOp} {ops : List ApiOp} {fs fs1 fs2 : FS} {tr : Trace}, Crash true op.call fs tr fs1 →
      (∀ x ∈ op :: ops, x.Proper) → (∀ x ∈ op :: ops, ∀ c l rt, x = .add c l rt → l.plugins ≠ []) →
      ((∀ x ∈ ops, x.Proper) → (∀ x ∈ ops, ∀ c l rt, x = .add c l rt → l.plugins ≠ []) → (fs2 q = fs1 q ∨ fs2 q = none ∨
        ∃ op ∈ ops, op.added ≠ none ∧ op.key = q ∧ ∃ content, Stores op.cfg op.rt content op.name ∧
          (fs2 q = some content ∨ ∃ b, Torn content b ∧ fs2 q = some b))) →
      (fs2 q = fs q ∨ fs2 q = none ∨ ∃ x ∈ op :: ops, x.added ≠ none ∧ x.key = q ∧ ∃ content, Stores x.cfg x.rt content x.name ∧
        (fs2 q = some content ∨ ∃ b, Torn content b ∧ fs2 q = some b)) := by
    intro op ops fs fs1 fs2 tr h1 hp hl ih
    rcases ih (fun x hx => hp x (List.mem_cons_of_mem _ hx)) (fun x hx => hl x (List.mem_cons_of_mem _ hx)) with h | h | ⟨x, hx, h⟩
    · rw [h]
      rcases step (hp op (List.mem_cons_self ..)) (hl op (List.mem_cons_self ..)) h1 with h | h | h
      · exact .inl h
      · exact .inr (.inl h)
      · exact .inr (.inr ⟨op, List.mem_cons_self .., h⟩)
    · exact .inr (.inl h)
    · exact .inr (.inr ⟨x, List.mem_cons_of_mem _ hx, h⟩)
  induction h with
  | nil => exact .inl rfl
  | completed h1 _ ih => exact both h1.crash hp hl ih
  | crashed h1 _ ih => exact both h1 hp hl ih

/-- So, starting from an empty cache, whatever the cached result that is read after such a history, it is one that an ADD of the
history stored there: torn files are never misread. -/
theorem c48_never_misread (ops : List ApiOp) (fs : FS) (h : RoughHistory ops (fun _ => none) fs) (hp : ∀ op ∈ ops, op.Proper)
    (hl : ∀ op ∈ ops, ∀ c l rt, op = .add c l rt → l.plugins ≠ []) (c : CNIConfig) (list : NetConfList) (rt : RuntimeConf)
    (hn : PlainNames list.name rt) (tr : Trace) (fs' : FS) (r : Result)
    (hr : Runs flt (c.getNetworkListCachedResult list rt) fs tr fs' (.ok (some r))) :
    ∃ op ∈ ops, op.added ≠ none ∧ op.key = entryPath c list.name rt ∧
      ∃ content, Stores op.cfg op.rt content op.name ∧ fs (entryPath c list.name rt) = some content := by
  obtain ⟨-, -, -, h4, -⟩ := runs_getCachedResult hr
  rcases h4 _ (cachePath_eq hn) with h4 | h4
  · rcases c48_history ops _ fs h hp hl (entryPath c list.name rt) with h0 | h0 | ⟨op, hop, ha, hk, content, hst, hc | ⟨b, hb, hc⟩⟩
    · rw [h0] at h4; cases h4
    · rw [h0] at h4; cases h4
    · exact ⟨op, hop, ha, hk, content, hst, hc⟩
    · rw [hc] at h4
      obtain ⟨g, hg⟩ := cachedResultOf_bad (ver := list.cniVersion) (torn_parse (hp op hop).ok hst hb)
      rw [hg] at h4; cases h4
  · cases h4

/-- And whatever attachment is listed is one that an ADD of the history stored whole. -/
theorem c48_never_mislisted (ops : List ApiOp) (fs : FS) (h : RoughHistory ops (fun _ => none) fs) (hp : ∀ op ∈ ops, op.Proper)
    (hl : ∀ op ∈ ops, ∀ c l rt, op = .add c l rt → l.plugins ≠ []) (c : CNIConfig) (tr : Trace) (fs' : FS) (l : List Attachment)
    (hr : Runs flt (c.getCachedAttachments []) fs tr fs' (.ok l)) (a : Attachment) (hal : a ∈ l) :
    ∃ n, ∃ op ∈ ops, op.added ≠ none ∧ op.key = childPath (resultsDir c) n ∧
      ∃ content, Stores op.cfg op.rt content op.name ∧ fs op.key = some content ∧ entryOf content = some a := by
  obtain ⟨-, -, -, hmem⟩ := getCachedAttachments_mem hr
  obtain ⟨n, hn, hat⟩ := hmem l rfl a hal
  unfold attachmentIn at hat
  rcases c48_history ops _ fs h hp hl (childPath (resultsDir c) n) with h0 | h0 | ⟨op, hop, ha, hk, content, hst, hc | ⟨b, hb, hc⟩⟩
  · rw [h0] at hat; cases hat
  · rw [h0] at hat; cases hat
  · rw [hc] at hat
    exact ⟨n, op, hop, ha, hk, content, hst, by rw [hk]; exact hc, hat⟩
  · rw [hc, Option.bind_some, entryOf_bad (torn_parse (hp op hop).ok hst hb)] at hat
    cases hat

/-! ### concrete cases -/

namespace Example

/-- A crash of ADD in the middle of writing the entry: both plugins have been executed, and the file is torn. -/
example : ∃ tr fs', Crash false (cfg.addNetworkList list rt) noFiles tr fs' ∧
    (tr.execs.map (fun e => e.path), fs' key) = ([b!"/bin/a", b!"/bin/b"], some (entry.take 40)) :=
  Prog.interpCrash_exists (find := find) (exec := good) (k := 40) (n := 5) (fun tr fs' => (tr.execs.map (fun e => e.path), fs' key))
    (by decide +kernel)

/-- A crash before anything was executed leaves the old entry. -/
example : ∃ tr fs', Crash false (cfg.addNetworkList list rt) oneFile tr fs' ∧
    (tr.execs.map (fun e => e.path), fs' key) = ([b!"/bin/a"], some entry) :=
  Prog.interpCrash_exists (find := find) (exec := good) (k := 40) (n := 2) (fun tr fs' => (tr.execs.map (fun e => e.path), fs' key))
    (by decide +kernel)

/-- What ADD stores in the example, and that the file above is a torn copy of it. -/
theorem stores_entry : Stores cfg rt entry list.name := by
  obtain ⟨tr, fs', o, h1, h2⟩ := Prog.interp_exists (flt := false) (p := cfg.addNetworkList list rt) (fs := noFiles) (find := find) (exec := good)
    (fun _ fs' o => (fs' b!"/cache/results/net-c1-eth0", o.toOption.bind id |>.isSome)) (b := (some entry, true)) (by decide +kernel)
  simp only [Prod.mk.injEq] at h2
  cases o with
  | ok r =>
    cases r with
    | some r =>
      refine .list (r := r) h1 ?_
      rw [show entryPath cfg list.name rt = b!"/cache/results/net-c1-eth0" by decide +kernel]
      exact h2.1
    | none => exact absurd h2.2 (by decide)
  | err g => exact absurd h2.2 (by simp [Out.toOption])
  | panic => exact absurd h2.2 (by decide)

example : Torn entry (entry.take 40) := ⟨40, by decide +kernel, rfl⟩

/-- DEL of the list with the torn file recovers; DEL of a network with it fails and executes nothing. -/
example : ∃ tr fs' o, Runs false (cfg.delNetworkList list rt) (FS.set noFiles key (some (entry.take 40))) tr fs' o ∧
    (tr.execs.map (fun e => (e.path, e.stdin)), fs' key, o.toOption) =
      ([(b!"/bin/b", b!"{\"cniVersion\":\"1.0.0\",\"name\":\"net\",\"type\":\"b\"}"),
        (b!"/bin/a", b!"{\"cniVersion\":\"1.0.0\",\"name\":\"net\",\"type\":\"a\",\"x\":1}")], none, some ()) :=
  Prog.interp_exists (find := find) (exec := good)
    (fun tr fs' o => (tr.execs.map (fun e => (e.path, e.stdin)), fs' key, o.toOption)) (by decide +kernel)
example : ∃ tr fs' o, Runs false (cfg.delNetwork { plugA with network := { name := b!"net", cniVersion := b!"1.0.0", type := b!"a" } } rt)
    (FS.set noFiles key (some (entry.take 40))) tr fs' o ∧
    (tr.execs.map (fun e => e.path), fs' key, o.toOption) = ([], some (entry.take 40), none) :=
  Prog.interp_exists (find := find) (exec := good) (fun tr fs' o => (tr.execs.map (fun e => e.path), fs' key, o.toOption)) (by decide +kernel)

/-- A rough history: an ADD that crashes while writing its entry, then a successful one of another attachment. -/
example : ∃ fs, RoughHistory [.add cfg list rt, .add cfg list rt2] (fun _ => none) fs ∧
    fs key = some (entry.take 40) ∧ (fs b!"/cache/results/net-other-eth0").isSome = true := by
  have h : (((ApiOp.add cfg list rt).call.interpCrash find good 40 5 fun _ => none).bind fun x =>
      ((ApiOp.add cfg list rt2).call.interp find good x.2).map fun y =>
        (y.2.1 key, (y.2.1 b!"/cache/results/net-other-eth0").isSome)) = some (some (entry.take 40), true) := by decide +kernel
  obtain ⟨x, hx, h⟩ := Option.bind_eq_some_iff.1 h
  obtain ⟨y, hy, h⟩ := Option.map_eq_some_iff.1 h
  simp only [Prod.mk.injEq] at h
  exact ⟨y.2.1, .crashed (Prog.interpCrash_crash hx) (.completed (Prog.interp_runs _ hy) (.nil _)), h.1, h.2⟩

/-- The single network of the examples. Test data; models no code. -/
def netA : PluginConfig := { plugA with network := { name := b!"net", cniVersion := b!"1.0.0", type := b!"a" } }

theorem plain_rt : PlainNames list.name rt := ⟨by decide, by decide, by decide⟩

/-- The theorems on crashes, each at a crash in the middle: ADD of a list and of a network while writing the entry, ... -/
example : ∃ tr fs', Crash false (cfg.addNetworkList list rt) oneFile tr fs' ∧ (tr.execs.length, fs' key) = (2, some (entry.take 40)) ∧
    (∀ q, q ≠ entryPath cfg list.name rt → fs' q = oneFile q) := by
  obtain ⟨tr, fs', h, ho⟩ := Prog.interpCrash_exists (flt := false) (p := cfg.addNetworkList list rt) (fs := oneFile) (find := find) (exec := good)
    (k := 40) (n := 5) (fun tr fs' => (tr.execs.length, fs' key)) (b := (2, some (entry.take 40))) (by decide +kernel)
  exact ⟨tr, fs', h, ho, (c48_add_list cfg list rt rt_ok (by decide) _ _ _ h).1⟩
example : ∃ tr fs', Crash false (cfg.addNetwork netA rt) oneFile tr fs' ∧ (tr.execs.length, (fs' key).map List.length) = (1, some 40) ∧
    (∀ q, q ≠ entryPath cfg netA.network.name rt → fs' q = oneFile q) := by
  obtain ⟨tr, fs', h, ho⟩ := Prog.interpCrash_exists (flt := false) (p := cfg.addNetwork netA rt) (fs := oneFile) (find := find) (exec := good)
    (k := 40) (n := 3) (fun tr fs' => (tr.execs.length, (fs' key).map List.length)) (b := (1, some 40)) (by decide +kernel)
  exact ⟨tr, fs', h, ho, (c48_add_network cfg netA rt rt_ok _ _ _ h).1⟩

/-- ... DEL of a list after the plugins and the removal, of a network and of a list between the plugins and the removal, ... -/
example : ∃ tr fs', Crash false (cfg.delNetworkList list rt) oneFile tr fs' ∧ (tr.execs.length, fs' key) = (2, none) ∧
    (∀ q, q ≠ entryPath cfg list.name rt → fs' q = oneFile q) := by
  obtain ⟨tr, fs', h, ho⟩ := Prog.interpCrash_exists (flt := false) (p := cfg.delNetworkList list rt) (fs := oneFile) (find := find) (exec := good)
    (k := 0) (n := 6) (fun tr fs' => (tr.execs.length, fs' key)) (b := (2, none)) (by decide +kernel)
  exact ⟨tr, fs', h, ho, (c48_del_list cfg list rt rt_ok plain_rt _ _ _ h).1⟩
example : ∃ tr fs', Crash false (cfg.delNetworkList list rt) oneFile tr fs' ∧ (tr.execs.length, fs' key) = (2, some entry) :=
  Prog.interpCrash_exists (find := find) (exec := good) (k := 0) (n := 5) (fun tr fs' => (tr.execs.length, fs' key)) (by decide +kernel)
example : ∃ tr fs', Crash false (cfg.delNetwork netA rt) oneFile tr fs' ∧ (tr.execs.length, fs' key) = (1, some entry) ∧
    (∀ q, q ≠ entryPath cfg netA.network.name rt → fs' q = oneFile q) := by
  obtain ⟨tr, fs', h, ho⟩ := Prog.interpCrash_exists (flt := false) (p := cfg.delNetwork netA rt) (fs := oneFile) (find := find) (exec := good)
    (k := 0) (n := 3) (fun tr fs' => (tr.execs.length, fs' key)) (b := (1, some entry)) (by decide +kernel)
  exact ⟨tr, fs', h, ho, (c48_del_network cfg netA rt rt_ok plain_rt _ _ _ h).1⟩

/-- ... and GC after the removal of the entry of a stale attachment. -/
example : ∃ tr fs', Crash false (cfg.gcNetworkList list11 none) oneFile tr fs' ∧ (tr.execs.length, fs' key) = (2, none) ∧
    ∃ n a, IsComp n ∧ key = childPath (resultsDir cfg) n ∧ attachmentIn cfg oneFile n = some a ∧ Stale list11.name none a := by
  obtain ⟨tr, fs', h, ho⟩ := Prog.afterDir_crash_exists (flt := false) (p := cfg.gcNetworkList list11 none) (fs := oneFile) (find := find) (exec := good)
    (k := 0) (n := 7) (Example.lists _) (fun tr fs' => (tr.execs.length, fs' key)) (b := (2, none)) (by decide +kernel) (fun _ _ _ => rfl)
  have hk : fs' key = none := by simp only [Prod.mk.injEq] at ho; exact ho.2
  exact ⟨tr, fs', h, ho, (c48_gc cfg list11 none _ _ _ h oneFile_own key
    (by rw [hk, oneFile, FS.set_same]; simp)).2⟩

end Example

end Verif
