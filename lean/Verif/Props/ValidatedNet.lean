/- C68 for single networks. -/
import Verif.Props.Validated

namespace Verif
open Spec

variable {flt : Bool}

/-- A validation of a single network succeeds exactly if its plugin is found and supports its version. -/
theorem validate_alone {c : CNIConfig} {net : PluginConfig} {fs fs' : FS} {tr : Trace} {o : Out (List Bytes)}
    (h : Runs flt (c.validateNetwork net) fs tr fs' o) {enum : MapEnum} (hen : IsMapOrder enum) {environ : List Bytes}
    {sup : Bytes → List Bytes} (hsk : ∀ e ∈ tr.execs, SkelPlugin enum environ e (sup e.path)) :
    (∃ r, tr.finds[0]? = some ⟨net.network.type, c.path, r⟩) ∧
    ((∃ caps, o = .ok caps) ↔ ∃ path, tr.finds[0]? = some ⟨net.network.type, c.path, .ok path⟩ ∧ effective net.network.cniVersion ∈ sup path) := by
  have key : ∀ a, Probes c [net] tr [a] → ((∃ caps, o = .ok caps) ↔ ∃ r, a = some r ∧ Supports r (effective net.network.cniVersion)) →
      (∃ r, tr.finds[0]? = some ⟨net.network.type, c.path, r⟩) ∧
      ((∃ caps, o = .ok caps) ↔ ∃ path, tr.finds[0]? = some ⟨net.network.type, c.path, .ok path⟩ ∧ effective net.network.cniVersion ∈ sup path) := by
    intro a hp hiff
    refine ⟨probes_find hp 0 net rfl, ?_⟩
    have := probes_skel (v := effective net.network.cniVersion) hp hen hsk
    rw [hiff]
    constructor
    · rintro ⟨r, rfl, hs⟩
      exact this.1 (fun a ha => by rw [List.mem_singleton] at ha; exact ⟨r, ha, hs⟩) 0 net rfl
    · intro hx
      refine this.2 (fun i p hi => ?_) a (by simp)
      cases i with
      | zero => cases hi; exact hx
      | succ i => simp at hi
  unfold CNIConfig.validateNetwork at h
  obtain ⟨tr1, tr2, fs1, o1, rfl, h1, h2⟩ := runs_bind.1 h
  obtain ⟨rfl, ⟨g, rfl, rfl⟩ | ⟨path, r, rfl, ⟨rfl, hsup⟩ | ⟨⟨g, rfl⟩, hsup⟩⟩⟩ := validatePlugin_runs h1
  · obtain ⟨rfl, rfl, rfl⟩ := h2
    exact key none (.notFound .nil) (by simp)
  · obtain ⟨rfl, rfl, rfl⟩ := runs_done.1 h2
    exact key (some (r : Except GoErr Bytes)) (.asked .nil) ⟨fun _ => ⟨_, rfl, hsup⟩, fun _ => ⟨_, rfl⟩⟩
  · obtain ⟨rfl, rfl, rfl⟩ := h2
    exact key (some (r : Except GoErr Bytes)) (.asked .nil) ⟨fun ⟨_, h⟩ => (by cases h), fun ⟨_, h, h'⟩ => by cases h; exact absurd h' hsup⟩

/-- The plugin of a valid network supports its version. -/
theorem alone_supports {exts : List Bytes} {w : Bytes → Bool} {sup : Bytes → List Bytes} {c : CNIConfig} {net : PluginConfig}
    (h : FoundValidAlone exts w sup c net) {t path : Bytes} (ht : t ∈ [net.network.type])
    (hf : findInPath exts w t c.path = .ok path) : effective net.network.cniVersion ∈ sup path := by
  obtain ⟨flt, fs, tr, fs', caps, enum, environ, hr, hen, hsk⟩ := h
  rw [List.mem_singleton] at ht
  subst ht
  obtain ⟨path', h1, h2⟩ := (validate_alone hr hen hsk.plugins).2.1 ⟨caps, rfl⟩
  obtain ⟨j, hj⟩ := finds_event (List.mem_of_getElem? h1)
  have := hsk.search j _ _ _ hj
  simp only at this
  rw [hf] at this
  cases this
  exact h2

/-- C68 for ADD of a single network. -/
theorem c68_add_network (c : CNIConfig) (net : PluginConfig) (rt : RuntimeConf) (hrt : rt.OK) (hns : rt.netNS ≠ [])
    (hpath : joinWith b!":" c.path ≠ []) (hplain : PlainVersion net.bytes) (exts : List Bytes) (w : Bytes → Bool)
    (sup : Bytes → List Bytes) (hread : ∀ path, ∀ s ∈ sup path, ∃ p, Reads s p) (hval : FoundValidAlone exts w sup c net)
    (fs fs' : FS) (tr : Trace) (o : Out Result) (h : Runs flt (c.addNetwork net rt) fs tr fs' o)
    (hw : DefaultSearch exts (fun _ => w) tr) (enum : MapEnum) (hen : IsMapOrder enum) (environ : List Bytes)
    (e : ExecEv) (he : e ∈ tr.execs) (t : SkelProc) (ht : ProcessOf enum environ e t) :
    GetsThrough (sup e.path) t .add (requestArgs t.getenv e.stdin) ∧ SeesAttachment c rt e.stdin (requestArgs t.getenv e.stdin) := by
  obtain ⟨type, hty, hf⟩ := executed_found (op := .add c net rt) trivial (.inl ⟨fs', o, h⟩) hw he
  have hm := alone_supports hval hty hf
  have hacc := c39_add_network c net rt hrt hns hpath fs fs' tr o h enum hen environ e he t ht
  obtain ⟨v, -, hv, hpass⟩ := hacc.version
  have hv := hv hplain
  rw [readable_sanitize (hread _ _ hm)] at hv
  subst hv
  exact ⟨passed_through (hpass (by intro u hu; cases hu)) (hread _) hm, hacc.sees⟩

/-- C68 for DEL of a single network. -/
theorem c68_del_network (c : CNIConfig) (net : PluginConfig) (rt : RuntimeConf) (hrt : rt.OK) (hcid : ValidName rt.containerID)
    (hname : ValidName net.network.name) (hif : ValidIfName rt.ifName)
    (hpath : joinWith b!":" c.path ≠ []) (hplain : PlainVersion net.bytes) (exts : List Bytes) (w : Bytes → Bool)
    (sup : Bytes → List Bytes) (hread : ∀ path, ∀ s ∈ sup path, ∃ p, Reads s p) (hval : FoundValidAlone exts w sup c net)
    (fs fs' : FS) (tr : Trace) (o : Out Unit) (h : Runs flt (c.delNetwork net rt) fs tr fs' o)
    (hw : DefaultSearch exts (fun _ => w) tr) (enum : MapEnum) (hen : IsMapOrder enum) (environ : List Bytes)
    (e : ExecEv) (he : e ∈ tr.execs) (t : SkelProc) (ht : ProcessOf enum environ e t) :
    GetsThrough (sup e.path) t .del (requestArgs t.getenv e.stdin) ∧ SeesAttachment c rt e.stdin (requestArgs t.getenv e.stdin) := by
  obtain ⟨type, hty, hf⟩ := executed_found (op := .del c net rt) trivial (.inl ⟨fs', o, h⟩) hw he
  have hm := alone_supports hval hty hf
  have hacc := c39_del_network c net rt hrt hcid hname hif hpath fs fs' tr o h enum hen environ e he t ht
  obtain ⟨v, -, hv, hpass⟩ := hacc.version
  have hv := hv hplain
  rw [readable_sanitize (hread _ _ hm)] at hv
  subst hv
  exact ⟨passed_through (hpass (by intro u hu; cases hu)) (hread _) hm, hacc.sees⟩

/-- C68 for CHECK of a single network. -/
theorem c68_check_network (c : CNIConfig) (net : PluginConfig) (rt : RuntimeConf) (hrt : rt.OK) (hcid : ValidName rt.containerID)
    (hname : ValidName net.network.name) (hif : ValidIfName rt.ifName) (hns : rt.netNS ≠ [])
    (hpath : joinWith b!":" c.path ≠ []) (hplain : PlainVersion net.bytes) (exts : List Bytes) (w : Bytes → Bool)
    (sup : Bytes → List Bytes) (hread : ∀ path, ∀ s ∈ sup path, ∃ p, Reads s p) (hval : FoundValidAlone exts w sup c net)
    (fs fs' : FS) (tr : Trace) (o : Out Unit) (h : Runs flt (c.checkNetwork net rt) fs tr fs' o)
    (hw : DefaultSearch exts (fun _ => w) tr) (enum : MapEnum) (hen : IsMapOrder enum) (environ : List Bytes)
    (e : ExecEv) (he : e ∈ tr.execs) (t : SkelProc) (ht : ProcessOf enum environ e t) :
    GetsThrough (sup e.path) t .check (requestArgs t.getenv e.stdin) ∧ SeesAttachment c rt e.stdin (requestArgs t.getenv e.stdin) := by
  obtain ⟨type, hty, hf⟩ := executed_found (op := .check c net rt) trivial (.inl ⟨fs', o, h⟩) hw he
  have hm := alone_supports hval hty hf
  obtain ⟨hacc, hpass⟩ := c39_check_network c net rt hrt hcid hname hif hns hpath fs fs' tr o h enum hen environ e he t ht
  have hne : net.network.cniVersion ≠ [] := by
    rintro h0
    have ha : ¬ AtLeast net.network.cniVersion (0, 4, 0) := by
      rw [h0]
      rintro ⟨q, hq, hle⟩
      have : q = (0, 1, 0) := c01_reads_unique hq .empty
      subst this
      revert hle
      simp [LexLe, LexLt]
    rw [((c15_check_network c net rt hrt fs fs' tr o h).2.1 ha).1] at he
    cases he
  rw [effective, if_neg hne] at hm
  exact ⟨passed_through (hpass hplain) (hread _) hm, hacc.sees⟩

/-- C68, the converse, for a single network. -/
theorem c68_added_is_valid_network (c : CNIConfig) (net : PluginConfig) (hutf : isUtf8 net.network.cniVersion = true) (rt : RuntimeConf)
    (hrt : rt.OK) (hns : rt.netNS ≠ []) (hpath : joinWith b!":" c.path ≠ []) (hplain : PlainVersion net.bytes) (exts : List Bytes)
    (w : Bytes → Bool) (sup : Bytes → List Bytes) (hread : ∀ path, ∀ s ∈ sup path, ∃ p, Reads s p)
    (enum : MapEnum) (hen : IsMapOrder enum) (environ : List Bytes)
    (fs fs' : FS) (tr : Trace) (r : Result) (h : Runs flt (c.addNetwork net rt) fs tr fs' (.ok r))
    (hsk : SkelRuns exts w sup enum environ tr)
    (fv fv' : FS) (trv : Trace) (ov : Out (List Bytes)) (hv : Runs flt (c.validateNetwork net) fv trv fv' ov)
    (hskv : SkelRuns exts w sup enum environ trv) : ∃ caps, ov = .ok caps := by
  obtain ⟨⟨r', hr'⟩, hiff⟩ := validate_alone hv hen hskv.plugins
  rw [hiff]
  obtain ⟨rs, hch, hok, -⟩ := c12_add_network c net rt hrt fs fs' tr _ h
  have hrs := hok r rfl
  obtain ⟨e, he, hret⟩ := hch.results 0 r (by rw [hrs]; rfl)
  obtain ⟨p, hp, hinv⟩ := hch.invoked 0 e he
  cases hp
  obtain ⟨j, hj⟩ := finds_event hinv.found
  have hfound : (.ok e.path : Except GoErr Bytes) = findInPath exts w net.network.type c.path := hsk.search j _ _ _ hj
  refine ⟨e.path, ?_, ?_⟩
  · obtain ⟨k, hk⟩ := finds_event (List.mem_of_getElem? hr')
    have : r' = findInPath exts w net.network.type c.path := hskv.search k _ _ _ hk
    rw [hr', this, hfound]
  · obtain ⟨quote, t, funcs, vi, about, ns, printed, stderr, ht, -, hvi, -, hans⟩ := hsk.plugins e (List.mem_of_getElem? he)
    have hacc := c39_add_network c net rt hrt hns hpath fs fs' tr _ h enum hen environ e (List.mem_of_getElem? he) t ht
    obtain ⟨v, -, hv', hpass⟩ := hacc.version
    have hv' := hv' hplain
    rw [sanitize_of_isUtf8 hutf] at hv'
    subst hv'
    have hvs : vi.supported = sup e.path := by
      unfold pluginSupports at hvi
      split at hvi
      · cases hvi
      · cases hvi; rfl
    refine Decidable.byContradiction fun hm => ?_
    obtain ⟨er, her, -⟩ := (hpass (by intro u hu; cases hu)).refused funcs vi about ns (by rw [hvs]; exact hread _) (by rw [hvs]; exact hm)
    obtain ⟨g, hg⟩ := answered_fails hans (by rw [her]; intro h; cases h)
    obtain ⟨out, hout, -⟩ := hret
    rw [hg] at hout
    cases hout

/-! ### a concrete case -/

namespace Example

/-- A single network. Test data; models no code. -/
def lone : PluginConfig :=
  { network := { name := b!"net", cniVersion := b!"1.0.0", type := b!"a" }, bytes := b!"{\"cniVersion\":\"1.0.0\",\"name\":\"net\",\"type\":\"a\"}" }

theorem lone_plain : PlainVersion lone.bytes := by
  intro ms h
  have e : Json.parse lone.bytes = some (.obj [(b!"cniVersion", .str b!"1.0.0"), (b!"name", .str b!"net"), (b!"type", .str b!"a")]) := by decide +kernel
  rw [e] at h
  cases h
  decide +kernel

/-- Runs of the example, with the library's own search. -/
theorem lone_runs {α β : Type} {p : Prog α} {fs : FS} (f : Out α → β) {b : β}
    (h : (p.interp (fun n => findInPath unixExtensions isBin n [b!"/bin"]) skelAnswer fs).map
      (fun x => (ownSearch x.1, x.1.execs.map (·.path), f x.2.2)) = some (true, [b!"/bin/a"], b)) :
    ∃ tr fs' o, Runs false p fs tr fs' o ∧ SkelRuns unixExtensions isBin builtFor List.reverse homeEnv tr ∧
      tr.execs.map (·.path) = [b!"/bin/a"] ∧ f o = b := by
  obtain ⟨x, hx, he⟩ := Option.map_eq_some_iff.1 h
  simp only [Prod.mk.injEq] at he
  exact ⟨_, _, _, p.interp_runs hx, ⟨ownSearch_default he.1, fun e hm => skelAnswer_plugin (interp_execs p hx e hm)⟩, he.2.1, he.2.2⟩

/-- C68: the network is found to be valid. -/
theorem lone_valid : FoundValidAlone unixExtensions isBin builtFor cfg lone := by
  obtain ⟨tr, fs', o, h, hsk, -, ho⟩ := lone_runs (p := cfg.validateNetwork lone) (fs := noFiles) (fun o => o.toOption) (b := some []) (by decide +kernel)
  exact ⟨false, noFiles, tr, fs', [], List.reverse, homeEnv, toOption_some.2 ho ▸ h, fun m => List.reverse_perm m, hsk⟩

/-- C68: ADD of it executes its plugin, which gets to its callback. -/
example : ∃ tr fs' r, Runs false (cfg.addNetwork lone rt) noFiles tr fs' (.ok r) ∧
    SkelRuns unixExtensions isBin builtFor List.reverse homeEnv tr ∧ tr.execs.length = 1 ∧
    ∀ e ∈ tr.execs, ∀ t, ProcessOf List.reverse homeEnv e t → GetsThrough (builtFor e.path) t .add (requestArgs t.getenv e.stdin) := by
  obtain ⟨tr, fs', o, h, hsk, hp, ho⟩ := lone_runs (p := cfg.addNetwork lone rt) (fs := noFiles) (fun o => o.toOption.isSome) (b := true) (by decide +kernel)
  have hread : ∀ path, ∀ s ∈ builtFor path, ∃ p, Reads s p := by
    intro path s hs
    simp only [builtFor, List.mem_cons, List.not_mem_nil, or_false] at hs
    rcases hs with rfl | rfl
    · exact ⟨_, (parseVersion_iff b!"0.4.0" (0, 4, 0)).1 (by decide)⟩
    · exact ⟨_, (parseVersion_iff b!"1.0.0" (1, 0, 0)).1 (by decide)⟩
  obtain ⟨r, hr⟩ := Option.isSome_iff_exists.1 ho
  refine ⟨tr, fs', r, toOption_some.2 hr ▸ h, hsk, ?_, fun e he t ht => ?_⟩
  · rw [← List.length_map (f := fun e : ExecEv => e.path), hp]; rfl
  · exact (c68_add_network cfg lone rt rt_ok (by decide) (by decide) lone_plain _ _ _ hread lone_valid noFiles fs' tr o h hsk.search _
      (fun m => List.reverse_perm m) _ e he t ht).1

/-- C68: CHECK and DEL of it execute the plugin too. -/
example : (∃ tr fs' o, Runs false (cfg.checkNetwork lone rt) oneFile tr fs' o ∧ SkelRuns unixExtensions isBin builtFor List.reverse homeEnv tr ∧
      tr.execs.map (·.path) = [b!"/bin/a"] ∧ o.toOption.isSome = true) ∧
    ∃ tr fs' o, Runs false (cfg.delNetwork lone rt) oneFile tr fs' o ∧ SkelRuns unixExtensions isBin builtFor List.reverse homeEnv tr ∧
      tr.execs.map (·.path) = [b!"/bin/a"] ∧ o.toOption.isSome = true :=
  ⟨lone_runs (fun o => o.toOption.isSome) (by decide +kernel), lone_runs (fun o => o.toOption.isSome) (by decide +kernel)⟩

end Example

end Verif
