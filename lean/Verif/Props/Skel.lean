/- C35-C38: the main function of a plugin. -/
import Verif.Base.CaseLemmas
import Verif.Spec.Skel
import Verif.Props.Names
import Verif.Props.Version
import Verif.Props.Del
import Verif.Json.DecEq

namespace Verif
open Spec
set_option linter.unusedSimpArgs false

/-! ### reading strings -/

theorem fieldMatch_one (f k : Bytes) : fieldMatch [f] k = some f ↔ foldKey k = foldKey f := by
  unfold fieldMatch
  by_cases h : k = f
  · simp [h]
  · simp only [List.mem_singleton, h, if_false, List.find?_cons, List.find?_nil, decide_eq_true_eq]
    by_cases h2 : foldKey f = foldKey k
    · simp [h2]
    · simp [h2, Ne.symm h2]

theorem decAll_readsString (key : Bytes) (ms : List (Bytes × Json)) (i s : Bytes) :
    decAll decStr i (getField [key] key ms) = some s ↔
      (∀ m ∈ ms, foldKey m.1 = foldKey key → m.2 = .null ∨ ∃ t, m.2 = .str t) ∧
      ((∃ a k b, ms = a ++ (k, .str s) :: b ∧ foldKey k = foldKey key ∧ ∀ m ∈ b, foldKey m.1 = foldKey key → m.2 = .null) ∨
        (s = i ∧ ∀ m ∈ ms, foldKey m.1 = foldKey key → m.2 = .null)) := by
  induction ms generalizing i with
  | nil =>
    rw [getField_nil, decAll_nil]
    constructor
    · intro h; cases h; exact ⟨fun m hm => (by cases hm), .inr ⟨rfl, fun m hm => (by cases hm)⟩⟩
    · rintro ⟨_, ⟨a, k, b, e, _⟩ | ⟨e, _⟩⟩
      · cases a <;> cases e
      · rw [e]
  | cons m ms ih =>
    obtain ⟨k, v⟩ := m
    have skip : (foldKey k = foldKey key → v = .null) →
        (((∀ m ∈ (k, v) :: ms, foldKey m.1 = foldKey key → m.2 = .null ∨ ∃ t, m.2 = .str t) ∧
          ((∃ a k' b, (k, v) :: ms = a ++ (k', .str s) :: b ∧ foldKey k' = foldKey key ∧
              ∀ m ∈ b, foldKey m.1 = foldKey key → m.2 = .null) ∨
            (s = i ∧ ∀ m ∈ (k, v) :: ms, foldKey m.1 = foldKey key → m.2 = .null))) ↔
        ((∀ m ∈ ms, foldKey m.1 = foldKey key → m.2 = .null ∨ ∃ t, m.2 = .str t) ∧
          ((∃ a k' b, ms = a ++ (k', .str s) :: b ∧ foldKey k' = foldKey key ∧
              ∀ m ∈ b, foldKey m.1 = foldKey key → m.2 = .null) ∨
            (s = i ∧ ∀ m ∈ ms, foldKey m.1 = foldKey key → m.2 = .null)))) := by
      intro hv
      constructor
      · rintro ⟨h1, h2⟩
        refine ⟨fun m hm => h1 m (List.mem_cons_of_mem _ hm), ?_⟩
        rcases h2 with ⟨a, k', b, e, hk, hb⟩ | ⟨e, h2⟩
        · cases a with
          | nil =>
            simp only [List.nil_append, List.cons.injEq, Prod.mk.injEq] at e
            have := hv (by rw [e.1.1]; exact hk)
            rw [e.1.2] at this; cases this
          | cons x a =>
            simp only [List.cons_append, List.cons.injEq] at e
            exact .inl ⟨a, k', b, e.2, hk, hb⟩
        · exact .inr ⟨e, fun m hm => h2 m (List.mem_cons_of_mem _ hm)⟩
      · rintro ⟨h1, h2⟩
        refine ⟨?_, ?_⟩
        · intro m hm hk
          rcases List.mem_cons.1 hm with rfl | hm
          · exact .inl (hv hk)
          · exact h1 m hm hk
        · rcases h2 with ⟨a, k', b, e, hk, hb⟩ | ⟨e, h2⟩
          · exact .inl ⟨(k, v) :: a, k', b, by rw [e]; rfl, hk, hb⟩
          · refine .inr ⟨e, ?_⟩
            intro m hm hk
            rcases List.mem_cons.1 hm with rfl | hm
            · exact hv hk
            · exact h2 m hm hk
    by_cases hk : foldKey k = foldKey key
    · rw [getField_cons_eq ((fieldMatch_one _ _).2 hk), decAll_cons]
      cases v with
      | null => simp only [decStr, Option.bind_some]; rw [ih, skip (fun _ => rfl)]
      | str t =>
        simp only [decStr, Option.bind_some]
        rw [ih]
        constructor
        · rintro ⟨h1, h2⟩
          refine ⟨?_, .inl ?_⟩
          · intro m hm hk'
            rcases List.mem_cons.1 hm with rfl | hm
            · exact .inr ⟨_, rfl⟩
            · exact h1 m hm hk'
          · rcases h2 with ⟨a, k', b, e, hk', hb⟩ | ⟨e, h2⟩
            · exact ⟨(k, .str t) :: a, k', b, by rw [e]; rfl, hk', hb⟩
            · exact ⟨[], k, ms, by rw [e]; rfl, hk, h2⟩
        · rintro ⟨h1, h2⟩
          refine ⟨fun m hm => h1 m (List.mem_cons_of_mem _ hm), ?_⟩
          rcases h2 with ⟨a, k', b, e, hk', hb⟩ | ⟨e, h2⟩
          · cases a with
            | nil =>
              simp only [List.nil_append, List.cons.injEq, Prod.mk.injEq, Json.str.injEq] at e
              refine .inr ⟨e.1.2.symm, ?_⟩
              rw [e.2]; exact hb
            | cons x a =>
              simp only [List.cons_append, List.cons.injEq] at e
              exact .inl ⟨a, k', b, e.2, hk', hb⟩
          · have := h2 _ (List.mem_cons_self ..) hk
            cases this
      | bool _ =>
        simp only [decStr, Option.bind_none, reduceCtorEq, false_iff]
        rintro ⟨h1, _⟩
        have := h1 _ (List.mem_cons_self ..) hk
        simp at this
      | num _ =>
        simp only [decStr, Option.bind_none, reduceCtorEq, false_iff]
        rintro ⟨h1, _⟩
        have := h1 _ (List.mem_cons_self ..) hk
        simp at this
      | arr _ =>
        simp only [decStr, Option.bind_none, reduceCtorEq, false_iff]
        rintro ⟨h1, _⟩
        have := h1 _ (List.mem_cons_self ..) hk
        simp at this
      | obj _ =>
        simp only [decStr, Option.bind_none, reduceCtorEq, false_iff]
        rintro ⟨h1, _⟩
        have := h1 _ (List.mem_cons_self ..) hk
        simp at this
    · rw [getField_cons_ne (fun h => hk ((fieldMatch_one _ _).1 h)), ih, skip (fun h => absurd h hk)]

theorem readsString_iff (key : Bytes) (ms : List (Bytes × Json)) (s : Bytes) :
    decAll decStr [] (getField [key] key ms) = some s ↔ ReadsString ms key s := decAll_readsString key ms [] s

theorem docMembers_iff (b : Bytes) (ms : List (Bytes × Json)) : (Json.parse b).bind structMembers = some ms ↔ DocMembers b ms := by
  unfold DocMembers
  cases Json.parse b with
  | none => simp
  | some j => cases j <;> simp [structMembers, eq_comm]

theorem confVersion_iff (b v : Bytes) : decodeVersion b = .ok v ↔ ConfVersion b v := by
  have key : ∀ ms, DocMembers b ms → (decodeVersion b = .ok v ↔ ∃ s, ReadsString ms b!"cniVersion" s ∧ v = if s = [] then b!"0.1.0" else s) := by
    intro ms hm
    have hm := (docMembers_iff b ms).2 hm
    simp only [← readsString_iff]
    unfold decodeVersion
    cases hj : Json.parse b with
    | none => rw [hj] at hm; simp at hm
    | some j =>
      rw [hj] at hm
      simp only [Option.bind_some] at hm
      simp only [hm]
      cases decAll decStr [] (getField [b!"cniVersion"] b!"cniVersion" ms) with
      | none => simp
      | some s => simp [eq_comm]
  constructor
  · intro h
    have : ∃ ms, DocMembers b ms := by
      unfold decodeVersion at h
      cases hj : Json.parse b with
      | none => rw [hj] at h; simp at h
      | some j =>
        rw [hj] at h
        cases hm : structMembers j with
        | none => simp only [hm] at h; cases h
        | some ms => exact ⟨ms, (docMembers_iff b ms).1 (by rw [hj]; exact hm)⟩
    obtain ⟨ms, hm⟩ := this
    obtain ⟨s, hs⟩ := (key ms hm).1 h
    exact ⟨ms, s, hm, hs⟩
  · rintro ⟨ms, s, hm, hs⟩
    exact (key ms hm).2 ⟨s, hs⟩

theorem decodeVersion_err {b : Bytes} (h : ¬ ∃ v, ConfVersion b v) : ∃ e, decodeVersion b = .err e := by
  cases hd : decodeVersion b with
  | ok v => exact absurd ⟨v, (confVersion_iff b v).1 hd⟩ h
  | err e => exact ⟨e, rfl⟩
  | panic =>
    unfold decodeVersion at hd
    split at hd
    · cases hd
    · split at hd
      · cases hd
      · split at hd <;> cases hd

theorem confVersion_unique {b v w : Bytes} (h : ConfVersion b v) (h' : ConfVersion b w) : v = w := by
  rw [← confVersion_iff] at h h'
  rw [h] at h'; exact Out.ok.inj h'

/-! ### the configuration -/

theorem skelValidateConfig_none (b : Bytes) : skelValidateConfig b = none ↔ ∃ n, ConfName b n ∧ ValidName n := by
  unfold skelValidateConfig ConfName
  simp only [← docMembers_iff, ← readsString_iff]
  cases (Json.parse b).bind structMembers with
  | none => simp
  | some ms =>
    simp only [Option.some.injEq, exists_eq_left']
    cases decAll decStr [] (getField [b!"name"] b!"name" ms) with
    | none => simp
    | some n =>
      simp only [Option.some.injEq, exists_eq_left']
      by_cases hn : n = []
      · subst hn
        simp [ValidName]
      · simp only [hn, if_false]
        exact (c43_network_name n).1

theorem skelValidateConfig_unreadable {b : Bytes} (h : ¬ ∃ n, ConfName b n) : ∃ e, skelValidateConfig b = some e ∧ e.code = 6 := by
  unfold skelValidateConfig
  unfold ConfName at h
  simp only [← docMembers_iff, ← readsString_iff] at h
  cases hm : (Json.parse b).bind structMembers with
  | none => exact ⟨_, rfl, rfl⟩
  | some ms =>
    simp only
    cases hd : decAll decStr [] (getField [b!"name"] b!"name" ms) with
    | none => exact ⟨_, rfl, rfl⟩
    | some n => exact absurd ⟨n, ms, hm, hd⟩ h

theorem skelValidateConfig_bad_name {b n : Bytes} (h : ConfName b n) (hn : ¬ ValidName n) :
    ∃ e, skelValidateConfig b = some e ∧ e.code = 7 := by
  obtain ⟨ms, hm, hr⟩ := h
  rw [← docMembers_iff] at hm
  rw [← readsString_iff] at hr
  unfold skelValidateConfig
  simp only [hm, hr]
  by_cases hz : n = []
  · simp only [hz, if_true]; exact ⟨_, rfl, rfl⟩
  · simp only [hz, if_false]
    cases hv : validateNetworkName n with
    | none => exact absurd ((c43_network_name n).1.1 hv) hn
    | some e => exact ⟨e, rfl, (c43_network_name n).2 e hv⟩

/-! ### the environment -/

theorem scanVars_spec (env : Bytes → Bytes) (cmd : Bytes) (vs : List EnvVar) (miss : List Bytes) :
    match scanVars env cmd miss vs with
    | .error e => ∃ v ∈ vs, env v.name ≠ [] ∧ v.check cmd (env v.name) = some e
    | .ok m => (∀ v ∈ vs, env v.name ≠ [] → v.check cmd (env v.name) = none) ∧
        (m = [] ↔ miss = [] ∧ ∀ v ∈ vs, (cmd ∈ v.req ∨ v.name = b!"CNI_COMMAND") → env v.name ≠ []) := by
  induction vs generalizing miss with
  | nil => simp [scanVars]
  | cons v vs ih =>
    simp only [scanVars]
    by_cases h : env v.name = []
    · simp only [h, if_true]
      by_cases h2 : cmd ∈ v.req ∨ v.name = b!"CNI_COMMAND"
      · simp only [h2, if_true]
        have := ih (miss ++ [v.name])
        cases hs : scanVars env cmd (miss ++ [v.name]) vs with
        | error e =>
          rw [hs] at this
          obtain ⟨w, hw, h3⟩ := this
          exact ⟨w, List.mem_cons_of_mem _ hw, h3⟩
        | ok m =>
          rw [hs] at this
          refine ⟨?_, ?_⟩
          · intro w hw hne
            rcases List.mem_cons.1 hw with rfl | hw
            · exact absurd h hne
            · exact this.1 w hw hne
          · rw [this.2]
            simp only [List.append_eq_nil_iff, List.cons_ne_nil, and_false, false_and, List.mem_cons, forall_eq_or_imp, h, ne_eq,
              not_true, imp_false, h2, false_iff, not_and]
      · simp only [h2, if_false]
        have := ih miss
        cases hs : scanVars env cmd miss vs with
        | error e =>
          rw [hs] at this
          obtain ⟨w, hw, h3⟩ := this
          exact ⟨w, List.mem_cons_of_mem _ hw, h3⟩
        | ok m =>
          rw [hs] at this
          refine ⟨?_, ?_⟩
          · intro w hw hne
            rcases List.mem_cons.1 hw with rfl | hw
            · exact absurd h hne
            · exact this.1 w hw hne
          · rw [this.2]
            simp only [List.mem_cons, forall_eq_or_imp, h2, false_imp_iff, true_and]
    · simp only [h, if_false]
      cases hc : v.check cmd (env v.name) with
      | some e => exact ⟨v, List.mem_cons_self .., h, hc⟩
      | none =>
        simp only
        have := ih miss
        cases hs : scanVars env cmd miss vs with
        | error e =>
          rw [hs] at this
          obtain ⟨w, hw, h3⟩ := this
          exact ⟨w, List.mem_cons_of_mem _ hw, h3⟩
        | ok m =>
          rw [hs] at this
          refine ⟨?_, ?_⟩
          · intro w hw hne
            rcases List.mem_cons.1 hw with rfl | hw
            · exact hc
            · exact this.1 w hw hne
          · rw [this.2]
            simp only [List.mem_cons, forall_eq_or_imp, h, ne_eq, not_false_eq_true, implies_true, true_and]

theorem interfaceName_code {s : Bytes} {e : CniErr} (h : validateInterfaceName s = some e) : e.code = 4 :=
  (c43_interface_name s).2 e h

/-- A check that fails has code 4. -/
theorem check_code (env : Bytes → Bytes) (cmd : Bytes) {v : EnvVar} (hv : v ∈ skelVars) (hne : env v.name ≠ []) {e : CniErr}
    (h : v.check cmd (env v.name) = some e) : e.code = 4 := by
  simp only [skelVars, List.mem_cons, List.not_mem_nil, or_false] at hv
  rcases hv with rfl | rfl | rfl | rfl | rfl | rfl | rfl <;> simp only [EnvVar.check] at h
  · cases h
  · split at h
    · rcases (c43_container_id _).2 e h with h | h
      · exact absurd h.1 hne
      · exact h.2
    · cases h
  · cases h
  · split at h
    · exact interfaceName_code h
    · cases h
  · cases h
  · cases h
  · cases h

/-- What the scan of the environment finds out. -/
theorem scan_cases (env : Bytes → Bytes) (cmd : Bytes) :
    (∃ e, scanVars env cmd [] skelVars = .error e ∧ e.code = 4 ∧ ∃ v ∈ skelVars, env v.name ≠ [] ∧ (v.check cmd (env v.name)).isSome = true) ∨
    (∃ m, scanVars env cmd [] skelVars = .ok m ∧ (∀ v ∈ skelVars, env v.name ≠ [] → v.check cmd (env v.name) = none) ∧
      (m = [] ↔ ∀ v ∈ skelVars, (cmd ∈ v.req ∨ v.name = b!"CNI_COMMAND") → env v.name ≠ [])) := by
  have := scanVars_spec env cmd skelVars []
  cases hs : scanVars env cmd [] skelVars with
  | error e =>
    rw [hs] at this
    obtain ⟨v, hv, hne, hc⟩ := this
    exact .inl ⟨e, rfl, check_code env cmd hv hne hc, v, hv, hne, by rw [hc]; rfl⟩
  | ok m =>
    rw [hs] at this
    exact .inr ⟨m, rfl, this.1, by simpa using this.2⟩

theorem validIfName_ne_nil {s : Bytes} (h : ValidIfName s) : s ≠ [] := by
  intro e; subst e; exact absurd h.1 (by simp)

theorem validName_ne_nil {s : Bytes} (h : ValidName s) : s ≠ [] := by
  obtain ⟨_, _, rfl, _⟩ := h; simp

/-- The conditions the scan establishes are those of the specification. -/
theorem envOK_iff (env : Bytes → Bytes) (v : Callback) (hc : env b!"CNI_COMMAND" = verbText v) :
    EnvOK env v ↔ (∀ x ∈ skelVars, env x.name ≠ [] → x.check (verbText v) (env x.name) = none) ∧
      (∀ x ∈ skelVars, (verbText v ∈ x.req ∨ x.name = b!"CNI_COMMAND") → env x.name ≠ []) := by
  have e1 := (c43_container_id (env b!"CNI_CONTAINERID")).1
  have e2 := (c43_interface_name (env b!"CNI_IFNAME")).1
  have hne : env b!"CNI_COMMAND" ≠ [] := by rw [hc]; cases v <;> decide
  simp only [skelVars, List.forall_mem_cons, EnvVar.check, List.not_mem_nil, false_imp_iff, implies_true, and_true, true_and]
  constructor
  · intro h
    have h3 := h.required
    have h4 := h.cid
    have h5 := h.ifn
    cases v <;> simp [requiredVars, verbText, OfAttachment] at h3 h4 h5 ⊢ <;> simp_all
  · rintro ⟨h1, h2⟩
    refine ⟨hc, ?_, ?_, ?_⟩ <;> cases v <;> simp [requiredVars, verbText, OfAttachment] at h1 h2 ⊢ <;> simp_all

theorem verbText_ne_version (v : Callback) : verbText v ≠ b!"VERSION" := by cases v <;> decide

theorem getCmdArgs_bad {t : SkelProc} {v : Callback} (hc : t.getenv b!"CNI_COMMAND" = verbText v) (h : ¬ EnvOK t.getenv v) :
    ∃ e, t.getCmdArgs = .error e ∧ e.code = 4 := by
  unfold SkelProc.getCmdArgs
  rcases scan_cases t.getenv (t.getenv b!"CNI_COMMAND") with ⟨e, hs, he, _⟩ | ⟨m, hs, h1, h2⟩
  · rw [hs]; exact ⟨e, rfl, he⟩
  · rw [hs]
    have hm : m ≠ [] := by
      intro hm
      rw [hc] at h1 h2
      exact h ((envOK_iff t.getenv v hc).2 ⟨h1, h2.1 hm⟩)
    simp only [hm, ne_eq, not_false_eq_true, if_true]
    exact ⟨_, rfl, rfl⟩

theorem getCmdArgs_good {t : SkelProc} {v : Callback} (h : EnvOK t.getenv v) :
    t.getCmdArgs = match t.stdin with
      | .error m => .error { code := 5, msg := b!"error reading from stdin: " ++ m }
      | .ok b => match skelValidateConfig b with
        | some e => .error e
        | none => .ok (verbText v, requestArgs t.getenv b) := by
  have hc := h.command
  unfold SkelProc.getCmdArgs
  rcases scan_cases t.getenv (t.getenv b!"CNI_COMMAND") with ⟨e, hs, _, x, hx, hne, hsome⟩ | ⟨m, hs, h1, h2⟩
  · rw [hc] at hsome
    rw [((envOK_iff t.getenv v hc).1 h).1 x hx hne] at hsome
    simp at hsome
  · rw [hs]
    have hm : m = [] := by
      rw [hc] at h2
      exact h2.2 ((envOK_iff t.getenv v hc).1 h).2
    simp only [hm, ne_eq, not_true, if_false, hc, verbText_ne_version]
    rfl

/-! ### calling -/

/-- The core of every command: version check and call. -/
theorem checkVersionAndCall_spec (a : CmdArgs) (vi : PluginInfo) (cb : Callback) (fn : Option (CmdArgs → Out Unit)) :
    (∃ v, ConfVersion a.stdinData v ∧ v ∈ vi.supported ∧
      ((fn = none ∧ checkVersionAndCall a vi cb fn = {}) ∨
        ∃ f, fn = some f ∧ checkVersionAndCall a vi cb fn = { calls := [(cb, a)], out := callbackOut (f a) })) ∨
    (∃ e, checkVersionAndCall a vi cb fn = { out := .error e } ∧
      ((e.code = 6 ∧ ¬ ∃ v, ConfVersion a.stdinData v) ∨ (e.code = 1 ∧ ∃ v, ConfVersion a.stdinData v ∧ v ∉ vi.supported))) := by
  unfold checkVersionAndCall
  by_cases hv : ∃ v, ConfVersion a.stdinData v
  · obtain ⟨v, hv⟩ := hv
    simp only [(confVersion_iff _ _).2 hv]
    by_cases hs : v ∈ vi.supported
    · rw [(c03_accepts_iff v vi.supported).1.2 hs]
      refine .inl ⟨v, hv, hs, ?_⟩
      cases fn with
      | none => exact .inl ⟨rfl, rfl⟩
      | some f => exact .inr ⟨f, rfl, rfl⟩
    · rw [(c03_accepts_iff v vi.supported).2 hs]
      exact .inr ⟨_, rfl, .inr ⟨rfl, v, hv, hs⟩⟩
  · obtain ⟨e, he⟩ := decodeVersion_err hv
    simp only [he]
    exact .inr ⟨_, rfl, .inl ⟨rfl, hv⟩⟩


theorem gateLoop_cases (a : CmdArgs) (vi : PluginInfo) {ver : Bytes} {q : Int × Int × Int} (hq : Reads ver q) (what : Bytes)
    (cb : Callback) (fn : Option (CmdArgs → Out Unit)) (l : List Bytes) :
    gateLoop a vi ver what cb fn l = checkVersionAndCall a vi cb fn ∨
      (∃ e, gateLoop a vi ver what cb fn l = { out := .error e } ∧
        ((e.code = 6 ∧ ∃ s ∈ l, ¬ ∃ p, Reads s p) ∨ (e.code = 1 ∧ ver ∉ l))) := by
  induction l with
  | nil => exact .inr ⟨_, rfl, .inr ⟨rfl, by simp⟩⟩
  | cons v vs ih =>
    simp only [gateLoop]
    rcases gte_atLeast (v := v) hq with ⟨h, ha⟩ | ⟨h, ha, _⟩ | ⟨g, h, ha, hn⟩
    · rw [h]; exact .inl rfl
    · rw [h]
      simp only
      rcases ih with ih | ⟨e, ih, h2⟩
      · exact .inl ih
      · refine .inr ⟨e, ih, ?_⟩
        rcases h2 with ⟨h2, s, hs, hn⟩ | ⟨h2, hn⟩
        · exact .inl ⟨h2, s, List.mem_cons_of_mem _ hs, hn⟩
        · refine .inr ⟨h2, ?_⟩
          intro hm
          rcases List.mem_cons.1 hm with rfl | hm
          · exact ha ⟨q, hq, .inl rfl⟩
          · exact hn hm
    · rw [h]
      exact .inr ⟨_, rfl, .inl ⟨rfl, v, List.mem_cons_self .., hn⟩⟩

/-- What can happen for a command with a minimal version. -/
theorem runGated_cases (a : CmdArgs) (vi : PluginInfo) {min : Bytes} {t : Int × Int × Int} (ht : Reads min t) (what : Bytes)
    (cb : Callback) (fn : Option (CmdArgs → Out Unit)) :
    (∃ ver, ConfVersion a.stdinData ver ∧ AtLeast ver t ∧ runGated a vi min what cb fn = checkVersionAndCall a vi cb fn) ∨
    (∃ e, runGated a vi min what cb fn = { out := .error e } ∧
      ((e.code = 6 ∧ ¬ ∃ ver, ConfVersion a.stdinData ver) ∨
        ∃ ver, ConfVersion a.stdinData ver ∧
          ((e.code = 6 ∧ ¬ ∃ q, Reads ver q) ∨ (e.code = 1 ∧ (∃ q, Reads ver q) ∧ ¬ AtLeast ver t) ∨
            (e.code = 6 ∧ AtLeast ver t ∧ ∃ s ∈ vi.supported, ¬ ∃ p, Reads s p) ∨
            (e.code = 1 ∧ AtLeast ver t ∧ ver ∉ vi.supported)))) := by
  unfold runGated
  by_cases hv : ∃ v, ConfVersion a.stdinData v
  · obtain ⟨ver, hv⟩ := hv
    simp only [(confVersion_iff _ _).2 hv]
    rcases gte_atLeast (v := ver) ht with ⟨h, ha⟩ | ⟨h, ha, hq⟩ | ⟨g, h, ha, hn⟩
    · rw [h]
      simp only
      obtain ⟨q, hq, hle⟩ := id ha
      rcases gateLoop_cases a vi hq what cb fn vi.supported with hl | ⟨e, hl, h2⟩
      · exact .inl ⟨ver, hv, ha, hl⟩
      · refine .inr ⟨e, hl, .inr ⟨ver, hv, ?_⟩⟩
        rcases h2 with ⟨h2, h3⟩ | ⟨h2, h3⟩
        · exact .inr (.inr (.inl ⟨h2, ha, h3⟩))
        · exact .inr (.inr (.inr ⟨h2, ha, h3⟩))
    · rw [h]
      exact .inr ⟨_, rfl, .inr ⟨ver, hv, .inr (.inl ⟨rfl, hq, ha⟩)⟩⟩
    · rw [h]
      exact .inr ⟨_, rfl, .inr ⟨ver, hv, .inl ⟨rfl, hn⟩⟩⟩
  · obtain ⟨e, he⟩ := decodeVersion_err hv
    simp only [he]
    exact .inr ⟨_, rfl, .inl ⟨rfl, hv⟩⟩

/-! ### the main function -/

/-- The command, once environment, stdin and configuration have been accepted. -/
def runVerb (ns : Namespaces) (a : CmdArgs) (vi : PluginInfo) (funcs : CNIFuncs) : Callback → SkelRun
  | .add => runAttach ns a vi .add funcs.add
  | .check => runGated a vi b!"0.4.0" b!"CHECK" .check funcs.check
  | .del => runAttach ns a vi .del funcs.del
  | .gc => runGated a vi b!"1.1.0" b!"GC" .gc funcs.gc
  | .status => runGated a vi b!"1.1.0" b!"STATUS" .status funcs.status

theorem verbText_ne_nil (v : Callback) : verbText v ≠ [] := by cases v <;> decide

theorem pluginMain_bad {t : SkelProc} {v : Callback} (hc : t.getenv b!"CNI_COMMAND" = verbText v) (h : ¬ EnvOK t.getenv v)
    (funcs : CNIFuncs) (vi : PluginInfo) (about : Bytes) (ns : Namespaces) :
    ∃ e, t.pluginMain funcs vi about ns = { out := .error e } ∧ e.code = 4 := by
  obtain ⟨e, he, hcode⟩ := getCmdArgs_bad hc h
  refine ⟨e, ?_, hcode⟩
  unfold SkelProc.pluginMain
  simp only [he, hc, verbText_ne_nil, false_and, and_false, if_false]

theorem pluginMain_good {t : SkelProc} {v : Callback} (h : EnvOK t.getenv v)
    (funcs : CNIFuncs) (vi : PluginInfo) (about : Bytes) (ns : Namespaces) :
    t.pluginMain funcs vi about ns = match t.stdin with
      | .error m => { out := .error { code := 5, msg := b!"error reading from stdin: " ++ m } }
      | .ok b => match skelValidateConfig b with
        | some e => { out := .error e }
        | none => runVerb ns (requestArgs t.getenv b) vi funcs v := by
  unfold SkelProc.pluginMain
  rw [getCmdArgs_good h]
  have hne : ¬ t.getenv b!"CNI_COMMAND" = [] := by rw [h.command]; exact verbText_ne_nil v
  cases t.stdin with
  | error m => simp only [hne, false_and, and_false, if_false]
  | ok b =>
    simp only
    cases skelValidateConfig b with
    | some e => simp only [hne, false_and, and_false, if_false]
    | none => cases v <;> rfl

/-- Any other command: nothing is called. -/
theorem pluginMain_other {t : SkelProc} (hc : ∀ v, t.getenv b!"CNI_COMMAND" ≠ verbText v)
    (funcs : CNIFuncs) (vi : PluginInfo) (about : Bytes) (ns : Namespaces) :
    (t.pluginMain funcs vi about ns).calls = [] := by
  unfold SkelProc.pluginMain
  cases hg : t.getCmdArgs with
  | error e => simp only; split <;> rfl
  | ok p =>
    obtain ⟨cmd, a⟩ := p
    have hcmd : cmd = t.getenv b!"CNI_COMMAND" := by
      unfold SkelProc.getCmdArgs at hg
      repeat' split at hg
      all_goals simp at hg
      · rename_i h; rw [h]; exact hg.1.symm
      · exact hg.1.symm
    have h1 := hc .add
    have h2 := hc .check
    have h3 := hc .del
    have h4 := hc .gc
    have h5 := hc .status
    simp only [← hcmd, verbText] at h1 h2 h3 h4 h5
    simp only [h1, h2, h3, h4, h5, if_false]
    split
    · unfold SkelProc.runVersion; split <;> rfl
    · rfl

/-- The verdict after the callback. -/
def afterCall (ns : Namespaces) (a : CmdArgs) (v : Callback) : SkelOut → SkelOut
  | .success => if v = .add ∨ v = .del then netnsVerdict ns a else .success
  | o => o

/-- The run once the version has been accepted too. -/
def calledRun (ns : Namespaces) (a : CmdArgs) (v : Callback) : Option (CmdArgs → Out Unit) → SkelRun
  | none => { out := afterCall ns a v .success }
  | some f => { calls := [(v, a)], out := afterCall ns a v (callbackOut (f a)) }

/-- What can happen once environment, stdin and configuration have been accepted. -/
theorem runVerb_cases (ns : Namespaces) (a : CmdArgs) (vi : PluginInfo) (funcs : CNIFuncs) (v : Callback) :
    (∃ ver, ConfVersion a.stdinData ver ∧ ver ∈ vi.supported ∧ (∀ t, minVersion v = some t → AtLeast ver t) ∧
      runVerb ns a vi funcs v = calledRun ns a v (callbackOf funcs v)) ∨
    (∃ e, runVerb ns a vi funcs v = { out := .error e } ∧
      ((e.code = 6 ∧ ¬ ∃ ver, ConfVersion a.stdinData ver) ∨
        ∃ ver, ConfVersion a.stdinData ver ∧
          ((∃ t, minVersion v = some t ∧ ((e.code = 6 ∧ ¬ ∃ q, Reads ver q) ∨ (e.code = 1 ∧ (∃ q, Reads ver q) ∧ ¬ AtLeast ver t) ∨
              (e.code = 6 ∧ AtLeast ver t ∧ ∃ s ∈ vi.supported, ¬ ∃ p, Reads s p))) ∨
            (e.code = 1 ∧ (∀ t, minVersion v = some t → AtLeast ver t) ∧ ver ∉ vi.supported)))) := by
  have attach : ∀ cb fn, (cb = .add ∨ cb = .del) → callbackOf funcs cb = fn →
      runVerb ns a vi funcs cb = runAttach ns a vi cb fn →
      (∃ ver, ConfVersion a.stdinData ver ∧ ver ∈ vi.supported ∧ (∀ t, minVersion cb = some t → AtLeast ver t) ∧
        runVerb ns a vi funcs cb = calledRun ns a cb fn) ∨
      (∃ e, runVerb ns a vi funcs cb = { out := .error e } ∧
        ((e.code = 6 ∧ ¬ ∃ ver, ConfVersion a.stdinData ver) ∨ (e.code = 1 ∧ ∃ ver, ConfVersion a.stdinData ver ∧ ver ∉ vi.supported))) := by
    intro cb fn hcb hfn hr
    rw [hr]
    unfold runAttach
    rcases checkVersionAndCall_spec a vi cb fn with ⟨ver, h1, h2, h3⟩ | ⟨e, he, h⟩
    · refine .inl ⟨ver, h1, h2, ?_, ?_⟩
      · intro t ht; rcases hcb with rfl | rfl <;> cases ht
      · rcases h3 with ⟨rfl, h3⟩ | ⟨f, rfl, h3⟩
        · rw [h3]; simp [hcb, calledRun, afterCall]
        · rw [h3]
          simp only [calledRun]
          cases callbackOut (f a) <;> simp [afterCall, hcb]
    · rw [he]
      exact .inr ⟨e, rfl, h⟩
  have gated : ∀ cb fn min t what, minVersion cb = some t → Reads min t → ¬ (cb = .add ∨ cb = .del) →
      runVerb ns a vi funcs cb = runGated a vi min what cb fn →
      (∃ ver, ConfVersion a.stdinData ver ∧ ver ∈ vi.supported ∧ (∀ t, minVersion cb = some t → AtLeast ver t) ∧
        runVerb ns a vi funcs cb = calledRun ns a cb fn) ∨
      (∃ e, runVerb ns a vi funcs cb = { out := .error e } ∧
        ((e.code = 6 ∧ ¬ ∃ ver, ConfVersion a.stdinData ver) ∨
          ∃ ver, ConfVersion a.stdinData ver ∧
          ((∃ t, minVersion cb = some t ∧ ((e.code = 6 ∧ ¬ ∃ q, Reads ver q) ∨ (e.code = 1 ∧ (∃ q, Reads ver q) ∧ ¬ AtLeast ver t) ∨
              (e.code = 6 ∧ AtLeast ver t ∧ ∃ s ∈ vi.supported, ¬ ∃ p, Reads s p))) ∨
            (e.code = 1 ∧ (∀ t, minVersion cb = some t → AtLeast ver t) ∧ ver ∉ vi.supported)))) := by
    intro cb fn min t what hmin hread hcb hr
    rw [hr]
    have hmin' : ∀ ver, AtLeast ver t → ∀ t', minVersion cb = some t' → AtLeast ver t' := by
      intro ver h t' ht'; rw [hmin] at ht'; cases ht'; exact h
    rcases runGated_cases a vi hread what cb fn with ⟨ver, hv, hal, he⟩ | ⟨e, he, h⟩
    · rw [he]
      rcases checkVersionAndCall_spec a vi cb fn with ⟨ver', h1, h2, h3⟩ | ⟨e, he, h⟩
      · cases confVersion_unique hv h1
        refine .inl ⟨ver, h1, h2, hmin' _ hal, ?_⟩
        rcases h3 with ⟨rfl, h3⟩ | ⟨f, rfl, h3⟩
        · rw [h3]; simp [hcb, calledRun, afterCall]
        · rw [h3]
          simp only [calledRun]
          cases callbackOut (f a) <;> simp [afterCall, hcb]
      · refine .inr ⟨e, he, ?_⟩
        rcases h with h | ⟨h, ver', h1, h2⟩
        · exact .inl h
        · cases confVersion_unique hv h1
          exact .inr ⟨ver, hv, .inr ⟨h, hmin' _ hal, h2⟩⟩
    · rw [he]
      refine .inr ⟨e, rfl, ?_⟩
      rcases h with h | ⟨ver, hv, h | h | h | ⟨h1, h2, h3⟩⟩
      · exact .inl h
      · exact .inr ⟨ver, hv, .inl ⟨t, hmin, .inl h⟩⟩
      · exact .inr ⟨ver, hv, .inl ⟨t, hmin, .inr (.inl h)⟩⟩
      · exact .inr ⟨ver, hv, .inl ⟨t, hmin, .inr (.inr h)⟩⟩
      · exact .inr ⟨ver, hv, .inr ⟨h1, hmin' _ h2, h3⟩⟩
  cases v with
  | add =>
    rcases attach .add funcs.add (.inl rfl) rfl rfl with h | ⟨e, he, h | ⟨h, ver, hv, hn⟩⟩
    · exact .inl h
    · exact .inr ⟨e, he, .inl h⟩
    · exact .inr ⟨e, he, .inr ⟨ver, hv, .inr ⟨h, fun t ht => (by cases ht), hn⟩⟩⟩
  | del =>
    rcases attach .del funcs.del (.inr rfl) rfl rfl with h | ⟨e, he, h | ⟨h, ver, hv, hn⟩⟩
    · exact .inl h
    · exact .inr ⟨e, he, .inl h⟩
    · exact .inr ⟨e, he, .inr ⟨ver, hv, .inr ⟨h, fun t ht => (by cases ht), hn⟩⟩⟩
  | check => exact gated .check funcs.check _ _ _ rfl reads_040 (by decide) rfl
  | gc => exact gated .gc funcs.gc _ _ _ rfl reads_110 (by decide) rfl
  | status => exact gated .status funcs.status _ _ _ rfl reads_110 (by decide) rfl


/-! ### C35 -/

/-- C35: a callback is called at most once, only the one for the command, only for a valid request, and with exactly the
environment and the bytes on stdin. -/
theorem c35_only_valid (t : SkelProc) (funcs : CNIFuncs) (vi : PluginInfo) (about : Bytes) (ns : Namespaces) (v : Callback)
    (a : CmdArgs) (h : (v, a) ∈ (t.pluginMain funcs vi about ns).calls) :
    (t.pluginMain funcs vi about ns).calls = [(v, a)] ∧ (callbackOf funcs v).isSome = true ∧
      ∃ b, t.stdin = .ok b ∧ a = requestArgs t.getenv b ∧ ValidRequest t.getenv b vi.supported v := by
  by_cases hc : ∃ w, t.getenv b!"CNI_COMMAND" = verbText w
  · obtain ⟨w, hc⟩ := hc
    by_cases he : EnvOK t.getenv w
    · rw [pluginMain_good he] at h ⊢
      cases hs : t.stdin with
      | error m => rw [hs] at h; cases h
      | ok b =>
        rw [hs] at h
        simp only at h ⊢
        cases hvc : skelValidateConfig b with
        | some e => rw [hvc] at h; cases h
        | none =>
          rw [hvc] at h
          simp only at h ⊢
          rcases runVerb_cases ns (requestArgs t.getenv b) vi funcs w with ⟨ver, h1, h2, h3, hr⟩ | ⟨e, hr, _⟩
          · rw [hr] at h ⊢
            cases hf : callbackOf funcs w with
            | none => rw [hf] at h; cases h
            | some f =>
              rw [hf] at h
              simp only [calledRun, List.mem_singleton, Prod.mk.injEq] at h
              obtain ⟨rfl, rfl⟩ := h
              refine ⟨rfl, by rw [hf]; rfl, b, rfl, rfl, he, (skelValidateConfig_none b).1 hvc, ver, h1, h2, h3⟩
          · rw [hr] at h; cases h
    · obtain ⟨e, hr, _⟩ := pluginMain_bad hc he funcs vi about ns
      rw [hr] at h; cases h
  · rw [pluginMain_other (fun w hw => hc ⟨w, hw⟩)] at h
    cases h

/-- The run for a valid request. -/
theorem pluginMain_valid {t : SkelProc} {funcs : CNIFuncs} {vi : PluginInfo} {about : Bytes} {ns : Namespaces} {v : Callback}
    {b : Bytes} (hs : t.stdin = .ok b) (h : ValidRequest t.getenv b vi.supported v)
    (hsup : minVersion v ≠ none → ∀ s ∈ vi.supported, ∃ p, Reads s p) :
    t.pluginMain funcs vi about ns = calledRun ns (requestArgs t.getenv b) v (callbackOf funcs v) := by
  rw [pluginMain_good h.env, hs]
  simp only [(skelValidateConfig_none b).2 h.name]
  obtain ⟨ver, hv, hm, hmin⟩ := h.version
  rcases runVerb_cases ns (requestArgs t.getenv b) vi funcs v with ⟨_, _, _, _, hr⟩ | ⟨e, _, ⟨_, hn⟩ | ⟨ver', hv', h2⟩⟩
  · exact hr
  · exact absurd ⟨ver, hv⟩ hn
  · have : ver' = ver := confVersion_unique hv' hv
    subst this
    rcases h2 with ⟨u, hu, ⟨_, h3⟩ | ⟨_, _, h3⟩ | ⟨_, _, s, hs, h3⟩⟩ | ⟨_, _, h3⟩
    · obtain ⟨q, hq, _⟩ := hmin u hu
      exact absurd ⟨q, hq⟩ h3
    · exact absurd (hmin u hu) h3
    · exact absurd (hsup (by rw [hu]; simp) s hs) h3
    · exact absurd hm h3

/-- C35: a valid request is given to the callback. -/
theorem c35_valid_called (t : SkelProc) (funcs : CNIFuncs) (vi : PluginInfo) (about : Bytes) (ns : Namespaces) (v : Callback)
    (b : Bytes) (f : CmdArgs → Out Unit) (hs : t.stdin = .ok b) (h : ValidRequest t.getenv b vi.supported v)
    (hsup : minVersion v ≠ none → ∀ s ∈ vi.supported, ∃ p, Reads s p) (hf : callbackOf funcs v = some f) :
    (t.pluginMain funcs vi about ns).calls = [(v, requestArgs t.getenv b)] := by
  rw [pluginMain_valid hs h hsup, hf]
  rfl

/-! ### C36 -/

/-- C36: a missing or invalid environment variable is code 4. -/
theorem c36_environment (t : SkelProc) (funcs : CNIFuncs) (vi : PluginInfo) (about : Bytes) (ns : Namespaces) (v : Callback)
    (hc : t.getenv b!"CNI_COMMAND" = verbText v) (h : ¬ EnvOK t.getenv v) :
    ∃ e, (t.pluginMain funcs vi about ns) = { out := .error e } ∧ e.code = 4 := pluginMain_bad hc h funcs vi about ns

/-- C36: without a command, code 4, or the "about" text and success if the plugin has one. -/
theorem c36_no_command (t : SkelProc) (funcs : CNIFuncs) (vi : PluginInfo) (about : Bytes) (ns : Namespaces)
    (hc : t.getenv b!"CNI_COMMAND" = []) :
    (about = [] → ∃ e, (t.pluginMain funcs vi about ns) = { out := .error e } ∧ e.code = 4) ∧
    (about ≠ [] → (t.pluginMain funcs vi about ns).out = .success ∧ (t.pluginMain funcs vi about ns).calls = [] ∧
      ∃ rest, (t.pluginMain funcs vi about ns).stderr = about ++ 10 :: rest) := by
  have : ∃ e, t.getCmdArgs = .error e ∧ e.code = 4 := by
    unfold SkelProc.getCmdArgs
    rcases scan_cases t.getenv (t.getenv b!"CNI_COMMAND") with ⟨e, hs, he, _⟩ | ⟨m, hs, h1, h2⟩
    · rw [hs]; exact ⟨e, rfl, he⟩
    · rw [hs]
      have hm : m ≠ [] := by
        intro hm
        exact h2.1 hm _ (List.mem_cons_self ..) (.inr rfl) hc
      simp only [hm, ne_eq, not_false_eq_true, if_true]
      exact ⟨_, rfl, rfl⟩
  obtain ⟨e, he, hcode⟩ := this
  unfold SkelProc.pluginMain
  simp only [he, hcode, hc, true_and]
  refine ⟨fun h => ?_, fun h => ?_⟩
  · simp only [h, ne_eq, not_true, if_false]; exact ⟨e, rfl, hcode⟩
  · simp only [h, ne_eq, not_false_eq_true, if_true, true_and]
    exact ⟨b!"CNI protocol versions supported: " ++ joinWith b!", " vi.supported ++ b!"\n", by simp⟩

/-- C36: with a complete environment, failing to read stdin is code 5. -/
theorem c36_stdin (t : SkelProc) (funcs : CNIFuncs) (vi : PluginInfo) (about : Bytes) (ns : Namespaces) (v : Callback) (m : Bytes)
    (he : EnvOK t.getenv v) (hs : t.stdin = .error m) :
    ∃ e, (t.pluginMain funcs vi about ns) = { out := .error e } ∧ e.code = 5 := by
  rw [pluginMain_good he, hs]; exact ⟨_, rfl, rfl⟩

/-- C36: a configuration from which no name can be read (invalid JSON, not an object, a name that is not a string) is code 6. -/
theorem c36_undecodable (t : SkelProc) (funcs : CNIFuncs) (vi : PluginInfo) (about : Bytes) (ns : Namespaces) (v : Callback) (b : Bytes)
    (he : EnvOK t.getenv v) (hs : t.stdin = .ok b) (hn : ¬ ∃ n, ConfName b n) :
    ∃ e, (t.pluginMain funcs vi about ns) = { out := .error e } ∧ e.code = 6 := by
  obtain ⟨e, h, hc⟩ := skelValidateConfig_unreadable hn
  rw [pluginMain_good he, hs]; simp only [h]; exact ⟨e, rfl, hc⟩

/-- C36: a missing or invalid network name is code 7. -/
theorem c36_name (t : SkelProc) (funcs : CNIFuncs) (vi : PluginInfo) (about : Bytes) (ns : Namespaces) (v : Callback) (b n : Bytes)
    (he : EnvOK t.getenv v) (hs : t.stdin = .ok b) (hn : ConfName b n) (hv : ¬ ValidName n) :
    ∃ e, (t.pluginMain funcs vi about ns) = { out := .error e } ∧ e.code = 7 := by
  obtain ⟨e, h, hc⟩ := skelValidateConfig_bad_name hn hv
  rw [pluginMain_good he, hs]; simp only [h]; exact ⟨e, rfl, hc⟩

/-- C36: a configuration version that is not a string is code 6. -/
theorem c36_version_undecodable (t : SkelProc) (funcs : CNIFuncs) (vi : PluginInfo) (about : Bytes) (ns : Namespaces) (v : Callback)
    (b : Bytes) (he : EnvOK t.getenv v) (hs : t.stdin = .ok b) (hn : ∃ n, ConfName b n ∧ ValidName n) (hv : ¬ ∃ ver, ConfVersion b ver) :
    ∃ e, (t.pluginMain funcs vi about ns) = { out := .error e } ∧ e.code = 6 := by
  rw [pluginMain_good he, hs]
  simp only [(skelValidateConfig_none b).2 hn]
  rcases runVerb_cases ns (requestArgs t.getenv b) vi funcs v with ⟨ver, h, _⟩ | ⟨e, hr, ⟨hc, _⟩ | ⟨ver, h, _⟩⟩
  · exact absurd ⟨ver, h⟩ hv
  · exact ⟨e, hr, hc⟩
  · exact absurd ⟨ver, h⟩ hv

/-- C36: a well-formed version that the plugin does not support, or that is too old for the command, is code 1. -/
theorem c36_version_mismatch (t : SkelProc) (funcs : CNIFuncs) (vi : PluginInfo) (about : Bytes) (ns : Namespaces) (v : Callback)
    (b ver : Bytes) (he : EnvOK t.getenv v) (hs : t.stdin = .ok b) (hn : ∃ n, ConfName b n ∧ ValidName n)
    (hv : ConfVersion b ver) (hwf : minVersion v ≠ none → (∃ p, Reads ver p) ∧ ∀ s ∈ vi.supported, ∃ p, Reads s p)
    (hbad : ver ∉ vi.supported ∨ ∃ u, minVersion v = some u ∧ ¬ AtLeast ver u) :
    ∃ e, (t.pluginMain funcs vi about ns) = { out := .error e } ∧ e.code = 1 := by
  rw [pluginMain_good he, hs]
  simp only [(skelValidateConfig_none b).2 hn]
  rcases runVerb_cases ns (requestArgs t.getenv b) vi funcs v with ⟨ver', h, h1, h2, _⟩ | ⟨e, hr, ⟨_, h2⟩ | ⟨ver', h, h3⟩⟩
  · have : ver' = ver := confVersion_unique h hv
    subst this
    rcases hbad with hb | ⟨u, hu, hb⟩
    · exact absurd h1 hb
    · exact absurd (h2 u hu) hb
  · exact absurd ⟨ver, hv⟩ h2
  · have : ver' = ver := confVersion_unique h hv
    subst this
    rcases h3 with ⟨u, hu, ⟨_, h3⟩ | ⟨hc, _⟩ | ⟨_, _, s, hs, h3⟩⟩ | ⟨hc, _⟩
    · exact absurd (hwf (by rw [hu]; simp)).1 h3
    · exact ⟨e, hr, hc⟩
    · exact absurd ((hwf (by rw [hu]; simp)).2 s hs) h3
    · exact ⟨e, hr, hc⟩

/-- C36: a version that is not a version is code 6 where a minimal version is required. -/
theorem c36_version_malformed (t : SkelProc) (funcs : CNIFuncs) (vi : PluginInfo) (about : Bytes) (ns : Namespaces) (v : Callback)
    (b ver : Bytes) (he : EnvOK t.getenv v) (hs : t.stdin = .ok b) (hn : ∃ n, ConfName b n ∧ ValidName n)
    (hv : ConfVersion b ver) (hm : minVersion v ≠ none) (hbad : ¬ ∃ p, Reads ver p) :
    ∃ e, (t.pluginMain funcs vi about ns) = { out := .error e } ∧ e.code = 6 := by
  have hno : ∀ u, ¬ AtLeast ver u := fun u ⟨p, hp, _⟩ => hbad ⟨p, hp⟩
  obtain ⟨u, hu⟩ := Option.ne_none_iff_exists'.1 hm
  rw [pluginMain_good he, hs]
  simp only [(skelValidateConfig_none b).2 hn]
  rcases runVerb_cases ns (requestArgs t.getenv b) vi funcs v with ⟨ver', h, h1, h2, _⟩ | ⟨e, hr, ⟨_, h2⟩ | ⟨ver', h, h3⟩⟩
  · have : ver' = ver := confVersion_unique h hv
    subst this
    exact absurd (h2 u hu) (hno u)
  · exact absurd ⟨ver, hv⟩ h2
  · have : ver' = ver := confVersion_unique h hv
    subst this
    rcases h3 with ⟨u, hu, ⟨hc, h3⟩ | ⟨_, h3, _⟩ | ⟨_, h3, _⟩⟩ | ⟨_, h3, _⟩
    · exact ⟨e, hr, hc⟩
    · exact absurd h3 hbad
    · exact absurd h3 (hno u)
    · exact absurd (h3 u hu) (hno u)

/-- C36: a callback's error is reported unchanged if it is a CNI error (whatever it is wrapped in), and as code 999 with its
message otherwise. -/
theorem c36_callback_error (t : SkelProc) (funcs : CNIFuncs) (vi : PluginInfo) (about : Bytes) (ns : Namespaces) (v : Callback)
    (b : Bytes) (f : CmdArgs → Out Unit) (g : GoErr) (hs : t.stdin = .ok b) (h : ValidRequest t.getenv b vi.supported v)
    (hsup : minVersion v ≠ none → ∀ s ∈ vi.supported, ∃ p, Reads s p) (hf : callbackOf funcs v = some f)
    (hg : f (requestArgs t.getenv b) = .err g) :
    (∀ e, g.asCni = some e → (t.pluginMain funcs vi about ns).out = .error e) ∧
    (g.asCni = none → (t.pluginMain funcs vi about ns).out = .error { code := 999, msg := g.msg }) := by
  rw [pluginMain_valid hs h hsup, hf]
  simp only [calledRun, hg, callbackOut]
  refine ⟨fun e he => ?_, fun he => ?_⟩ <;> rw [he] <;> rfl

theorem netnsVerdict_codes (ns : Namespaces) (a : CmdArgs) : netnsVerdict ns a = .success ∨ ∃ e, netnsVerdict ns a = .error e ∧ e.code = 8 := by
  unfold netnsVerdict checkNetNS
  repeat' split
  all_goals first
    | exact .inl rfl
    | (rename_i h; split at h; · cases h
       · split at h
         · cases h; exact .inr ⟨_, rfl, rfl⟩
         · cases h)
    | exact .inr ⟨_, rfl, rfl⟩

/-- C36: an error that does not come from the callback has code 1, 4, 5, 6, 7 or 8; in particular never 3. -/
theorem c36_codes (t : SkelProc) (funcs : CNIFuncs) (vi : PluginInfo) (about : Bytes) (ns : Namespaces) (e : CniErr)
    (h : (t.pluginMain funcs vi about ns).out = .error e) :
    e.code ∈ [1, 4, 5, 6, 7, 8] ∨
      ∃ v f b g, (t.pluginMain funcs vi about ns).calls = [(v, requestArgs t.getenv b)] ∧ callbackOf funcs v = some f ∧
        f (requestArgs t.getenv b) = .err g ∧ (g.asCni = some e ∨ (g.asCni = none ∧ e = { code := 999, msg := g.msg })) := by
  by_cases hc : ∃ w, t.getenv b!"CNI_COMMAND" = verbText w
  · obtain ⟨w, hc⟩ := hc
    by_cases he : EnvOK t.getenv w
    · rw [pluginMain_good he] at h ⊢
      cases hs : t.stdin with
      | error m => rw [hs] at h; cases h; exact .inl (by simp)
      | ok b =>
        rw [hs] at h
        simp only at h ⊢
        cases hvc : skelValidateConfig b with
        | some e' =>
          rw [hvc] at h
          cases h
          refine .inl ?_
          by_cases hn : ∃ n, ConfName b n
          · obtain ⟨n, hn⟩ := hn
            by_cases hv : ValidName n
            · rw [(skelValidateConfig_none b).2 ⟨n, hn, hv⟩] at hvc; cases hvc
            · obtain ⟨e2, h2, h3⟩ := skelValidateConfig_bad_name hn hv
              rw [hvc] at h2; cases h2; simp [h3]
          · obtain ⟨e2, h2, h3⟩ := skelValidateConfig_unreadable hn
            rw [hvc] at h2; cases h2; simp [h3]
        | none =>
          rw [hvc] at h
          simp only at h ⊢
          rcases runVerb_cases ns (requestArgs t.getenv b) vi funcs w with ⟨ver, h1, h2, h3, hr⟩ | ⟨e', hr, hcases⟩
          · rw [hr] at h ⊢
            have verdict : ∀ o, afterCall ns (requestArgs t.getenv b) w o = .error e → e.code = 8 ∨ o = .error e := by
              intro o ho
              cases o with
              | success =>
                simp only [afterCall] at ho
                split at ho
                · rcases netnsVerdict_codes ns (requestArgs t.getenv b) with h | ⟨e2, h, h2⟩ <;> rw [h] at ho <;> cases ho
                  exact .inl h2
                · cases ho
              | error e2 => exact .inr ho
              | crash => cases ho
            cases hf : callbackOf funcs w with
            | none =>
              rw [hf] at h
              rcases verdict .success h with h | h
              · exact .inl (by simp [h])
              · cases h
            | some f =>
              rw [hf] at h
              rcases verdict _ h with h | h
              · exact .inl (by simp [h])
              · refine .inr ⟨w, f, b, ?_⟩
                cases hg : f (requestArgs t.getenv b) with
                | ok _ => rw [hg] at h; cases h
                | panic => rw [hg] at h; cases h
                | err g =>
                  rw [hg] at h
                  simp only [callbackOut] at h
                  refine ⟨g, rfl, hf, rfl, ?_⟩
                  cases ha : g.asCni with
                  | none => rw [ha] at h; cases h; exact .inr ⟨rfl, rfl⟩
                  | some e2 => rw [ha] at h; cases h; exact .inl rfl
          · rw [hr] at h
            cases h
            refine .inl ?_
            rcases hcases with ⟨h, _⟩ | ⟨_, _, ⟨_, _, ⟨h, _⟩ | ⟨h, _⟩ | ⟨h, _⟩⟩ | ⟨h, _⟩⟩ <;> simp [h]
    · obtain ⟨e', hr, h4⟩ := pluginMain_bad hc he funcs vi about ns
      rw [hr] at h; cases h; exact .inl (by simp [h4])
  · refine .inl ?_
    unfold SkelProc.pluginMain at h
    have h1 : ∀ w, t.getenv b!"CNI_COMMAND" ≠ verbText w := fun w hw => hc ⟨w, hw⟩
    cases hg : t.getCmdArgs with
    | error e' =>
      rw [hg] at h
      simp only at h
      split at h
      · cases h
      · cases h
        unfold SkelProc.getCmdArgs at hg
        rcases scan_cases t.getenv (t.getenv b!"CNI_COMMAND") with ⟨e2, hs, he, _⟩ | ⟨m, hs, _, _⟩
        · rw [hs] at hg; cases hg; simp [he]
        · rw [hs] at hg
          simp only at hg
          split at hg
          · cases hg; simp
          · split at hg
            · cases hg
            · split at hg
              · cases hg; simp
              · rename_i b _
                split at hg
                · rename_i e3 hvc
                  cases hg
                  by_cases hn : ∃ n, ConfName b n
                  · obtain ⟨n, hn⟩ := hn
                    by_cases hv : ValidName n
                    · rw [(skelValidateConfig_none b).2 ⟨n, hn, hv⟩] at hvc; cases hvc
                    · obtain ⟨e2, h2, h3⟩ := skelValidateConfig_bad_name hn hv
                      rw [hvc] at h2; cases h2; simp [h3]
                  · obtain ⟨e2, h2, h3⟩ := skelValidateConfig_unreadable hn
                    rw [hvc] at h2; cases h2; simp [h3]
                · cases hg
    | ok p =>
      obtain ⟨cmd, a⟩ := p
      have hcmd : cmd = t.getenv b!"CNI_COMMAND" := by
        unfold SkelProc.getCmdArgs at hg
        repeat' split at hg
        all_goals simp at hg
        · rename_i h; rw [h]; exact hg.1.symm
        · exact hg.1.symm
      rw [hg] at h
      have h1' := h1 .add
      have h2 := h1 .check
      have h3 := h1 .del
      have h4 := h1 .gc
      have h5 := h1 .status
      simp only [← hcmd, verbText] at h1' h2 h3 h4 h5
      simp only [h1', h2, h3, h4, h5, if_false] at h
      split at h
      · unfold SkelProc.runVersion at h
        split at h
        · cases h; simp
        · cases h
      · cases h; simp

/-- C36: an unknown command, with a valid configuration, is code 4. -/
theorem c36_unknown_command (t : SkelProc) (funcs : CNIFuncs) (vi : PluginInfo) (about : Bytes) (ns : Namespaces) (b : Bytes)
    (hne : t.getenv b!"CNI_COMMAND" ≠ []) (hc : ∀ v, t.getenv b!"CNI_COMMAND" ≠ verbText v) (hv : t.getenv b!"CNI_COMMAND" ≠ b!"VERSION")
    (hs : t.stdin = .ok b) (hn : ∃ n, ConfName b n ∧ ValidName n) :
    ∃ e, (t.pluginMain funcs vi about ns) = { out := .error e } ∧ e.code = 4 := by
  have h1 := hc .add
  have h2 := hc .check
  have h3 := hc .del
  have h4 := hc .gc
  have h5 := hc .status
  simp only [verbText] at h1 h2 h3 h4 h5
  unfold SkelProc.pluginMain SkelProc.getCmdArgs
  rcases scan_cases t.getenv (t.getenv b!"CNI_COMMAND") with ⟨e2, hsc, he, _⟩ | ⟨m, hsc, _, hm⟩
  · rw [hsc]
    simp only [hne, false_and, and_false, if_false]
    exact ⟨e2, rfl, he⟩
  · rw [hsc]
    simp only [hs, (skelValidateConfig_none b).2 hn]
    by_cases hm0 : m = []
    · simp only [hm0, ne_eq, not_true, if_false, hv, h1, h2, h3, h4, h5]
      exact ⟨_, rfl, rfl⟩
    · simp only [hm0, ne_eq, not_false_eq_true, if_true, hne, false_and, and_false, if_false]
      exact ⟨_, rfl, rfl⟩

/-! ### C37 -/

/-- C37: VERSION prints the supported versions whatever else the environment and stdin hold, and calls nothing. -/
theorem c37_version (t : SkelProc) (funcs : CNIFuncs) (vi : PluginInfo) (about : Bytes) (ns : Namespaces)
    (hc : t.getenv b!"CNI_COMMAND" = b!"VERSION") (ho : t.stdoutErr = none) :
    t.pluginMain funcs vi about ns = { stdout := vi.encode } := by
  unfold SkelProc.pluginMain SkelProc.getCmdArgs
  have key : scanVars t.getenv (t.getenv b!"CNI_COMMAND") [] skelVars = .ok [] := by
    rcases scan_cases t.getenv (t.getenv b!"CNI_COMMAND") with ⟨e2, hsc, he, v, hv, hne, hs⟩ | ⟨m, hsc, _, hm⟩
    · exfalso
      rw [hc] at hs
      simp only [skelVars, List.mem_cons, List.not_mem_nil, or_false] at hv
      rcases hv with rfl | rfl | rfl | rfl | rfl | rfl | rfl <;> simp [EnvVar.check] at hs
    · rw [hsc]
      congr 1
      rw [hm, hc]
      intro v hv h
      simp only [skelVars, List.mem_cons, List.not_mem_nil, or_false] at hv
      rcases hv with rfl | rfl | rfl | rfl | rfl | rfl | rfl <;> simp [hc] at h ⊢
  rw [key]
  simp only [hc, ne_eq, not_true, if_false, if_true]
  simp [SkelProc.runVersion, ho]

/-- C37: what a plugin declared with `PluginSupports` prints decodes to exactly its versions. -/
theorem c37_decodes (t : SkelProc) (funcs : CNIFuncs) (vs : List Bytes) (vi : PluginInfo) (about : Bytes) (ns : Namespaces)
    (hc : t.getenv b!"CNI_COMMAND" = b!"VERSION") (ho : t.stdoutErr = none) (hvi : pluginSupports vs = .ok vi)
    (hu : ∀ v ∈ vs, isUtf8 v = true) :
    ∃ info, decodePluginInfo (t.pluginMain funcs vi about ns).stdout = .ok info ∧ info.supported = vs ∧ info.cniVersion = b!"1.1.0" := by
  rw [c37_version t funcs vi about ns hc ho]
  unfold pluginSupports at hvi
  split at hvi
  · cases hvi
  · rename_i hne
    cases hvi
    exact ⟨_, decode_encode_info _ (by simp only; decide) hu (by simp only; decide) hne, rfl, rfl⟩

/-! ### C38 -/

theorem forall_u8 {p : UInt8 → Prop} [DecidablePred p] (h : ∀ n : Fin 256, p (UInt8.ofNat n.val)) (c : UInt8) : p c := by
  have := h ⟨c.toNat, c.toNat_lt⟩
  simpa using this

theorem overridden_iff (s : Bytes) : (¬ (toUpper s ≠ b!"TRUE" ∧ s ≠ b!"1")) ↔ Overridden s := by
  have b1 : ∀ c : UInt8, upperByte c = 84 ↔ lowerByte c = 116 := forall_u8 (by decide +kernel)
  have b2 : ∀ c : UInt8, upperByte c = 82 ↔ lowerByte c = 114 := forall_u8 (by decide +kernel)
  have b3 : ∀ c : UInt8, upperByte c = 85 ↔ lowerByte c = 117 := forall_u8 (by decide +kernel)
  have b4 : ∀ c : UInt8, upperByte c = 69 ↔ lowerByte c = 101 := forall_u8 (by decide +kernel)
  have : toUpper s = b!"TRUE" ↔ toLower s = b!"true" := by
    unfold toUpper toLower
    match s with
    | [] => simp
    | [_] => simp
    | [_, _] => simp
    | [_, _, _] => simp
    | [a, b, c, d] => simp [b1, b2, b3, b4]
    | _ :: _ :: _ :: _ :: _ :: _ => simp
  unfold Overridden
  rw [← toLower_iff (by decide) s, ← this]
  constructor
  · intro h
    by_cases h1 : toUpper s = b!"TRUE"
    · exact .inr h1
    · by_cases h2 : s = b!"1"
      · exact .inl h2
      · exact absurd ⟨h1, h2⟩ h
  · rintro (h | h) ⟨h1, h2⟩
    · exact h2 h
    · exact h1 h

/-- C38: ADD and DEL in the plugin's own network namespace, without the override, are reported as code 8; but the callback,
if there is one, has been called by then. -/
theorem c38_own_namespace (t : SkelProc) (funcs : CNIFuncs) (vi : PluginInfo) (about : Bytes) (ns : Namespaces) (v : Callback)
    (b : Bytes) (f : CmdArgs → Out Unit) (hv : v = .add ∨ v = .del) (hs : t.stdin = .ok b)
    (h : ValidRequest t.getenv b vi.supported v) (hf : callbackOf funcs v = some f) (hok : f (requestArgs t.getenv b) = .ok ())
    (hov : ¬ Overridden (t.getenv b!"CNI_NETNS_OVERRIDE")) (hns : OwnNamespace ns (t.getenv b!"CNI_NETNS")) :
    (∃ e, (t.pluginMain funcs vi about ns).out = .error e ∧ e.code = 8) ∧
      (t.pluginMain funcs vi about ns).calls = [(v, requestArgs t.getenv b)] := by
  have hsup : minVersion v ≠ none → ∀ s ∈ vi.supported, ∃ p, Reads s p := by
    intro hm; rcases hv with rfl | rfl <;> exact absurd rfl hm
  rw [pluginMain_valid hs h hsup, hf]
  obtain ⟨n, h1, h2⟩ := hns
  refine ⟨?_, rfl⟩
  have ho := Classical.not_not.1 (mt (overridden_iff (t.getenv b!"CNI_NETNS_OVERRIDE")).1 hov)
  have hv' : netnsVerdict ns (requestArgs t.getenv b)
      = .error { code := 8, msg := b!"plugin's netns and netns from CNI_NETNS should not be the same" } := by
    unfold netnsVerdict
    rw [if_pos (by exact ho)]
    simp [checkNetNS, requestArgs, h1, h2]
  simp only [calledRun, hok, callbackOut, afterCall, hv, if_true, hv']
  exact ⟨_, rfl, rfl⟩

/-- C38: with the override, or in another namespace, a callback that succeeds makes the plugin succeed. -/
theorem c38_success (t : SkelProc) (funcs : CNIFuncs) (vi : PluginInfo) (about : Bytes) (ns : Namespaces) (v : Callback)
    (b : Bytes) (f : CmdArgs → Out Unit) (hs : t.stdin = .ok b)
    (h : ValidRequest t.getenv b vi.supported v) (hsup : minVersion v ≠ none → ∀ s ∈ vi.supported, ∃ p, Reads s p)
    (hf : callbackOf funcs v = some f) (hok : f (requestArgs t.getenv b) = .ok ())
    (hns : v ≠ .add ∧ v ≠ .del ∨ Overridden (t.getenv b!"CNI_NETNS_OVERRIDE") ∨ ns.at_ (t.getenv b!"CNI_NETNS") = none ∨
      ∃ m, ns.self = some m ∧ ns.at_ (t.getenv b!"CNI_NETNS") ≠ some m) :
    t.pluginMain funcs vi about ns = { calls := [(v, requestArgs t.getenv b)], out := .success } := by
  rw [pluginMain_valid hs h hsup, hf]
  simp only [calledRun, hok, callbackOut, afterCall]
  congr 1
  split
  · rename_i hv
    unfold netnsVerdict
    rcases hns with hn | hn | hn | ⟨m, hm, hn⟩
    · rcases hv with hv | hv
      · exact absurd hv hn.1
      · exact absurd hv hn.2
    · exact if_neg ((overridden_iff (t.getenv b!"CNI_NETNS_OVERRIDE")).2 hn)
    · split
      · simp [checkNetNS, requestArgs, hn]
      · rfl
    · split
      · simp only [checkNetNS, requestArgs, hm]
        cases ha : ns.at_ (t.getenv b!"CNI_NETNS") with
        | none => rfl
        | some n =>
          have : m ≠ n := by rintro rfl; exact hn ha
          simp [this]
      · rfl
  · rfl

/-! ### concrete cases -/

namespace SkelExample

/-- An environment as an association list. -/
def env (l : List (Bytes × Bytes)) (k : Bytes) : Bytes := (l.find? fun e => e.1 = k).elim [] Prod.snd

def vars (cmd cid : Bytes) : List (Bytes × Bytes) :=
  [(b!"CNI_COMMAND", cmd), (b!"CNI_CONTAINERID", cid), (b!"CNI_NETNS", b!"/ns"), (b!"CNI_IFNAME", b!"eth0"), (b!"CNI_PATH", b!"/bin")]

def conf : Bytes := b!"{\"cniVersion\":\"1.0.0\",\"name\":\"net\",\"type\":\"x\"}"
def old : Bytes := b!"{\"cniVersion\":\"0.2.0\",\"name\":\"net\",\"type\":\"x\"}"
def proc (cmd cid stdin : Bytes) : SkelProc := { getenv := env (vars cmd cid), stdin := .ok stdin }
/-- Every callback succeeds but DEL, which returns a CNI error. -/
def funcs : CNIFuncs :=
  { add := some fun _ => .ok (), check := some fun _ => .ok (), del := some fun _ => .err (.cni { code := 11, msg := b!"later" }) }
def vi : PluginInfo := { cniVersion := b!"1.1.0", supported := [b!"0.2.0", b!"1.0.0"] }
/-- `/ns` is the plugin's own namespace, or another one. -/
def own : Namespaces := { at_ := fun _ => some 1, self := some 1 }
def other : Namespaces := { at_ := fun _ => some 2, self := some 1 }

/-- What is seen of a run: the callbacks called and the error code. -/
def seen (r : SkelRun) : List Callback × Option Nat :=
  (r.calls.map Prod.fst, match r.out with | .error e => some e.code | _ => none)

/-- A valid ADD request. -/
theorem valid_add : ValidRequest (proc b!"ADD" b!"c1" conf).getenv conf vi.supported .add := by
  have h : (Callback.add, requestArgs (proc b!"ADD" b!"c1" conf).getenv conf)
      ∈ ((proc b!"ADD" b!"c1" conf).pluginMain funcs vi [] other).calls := by decide +kernel
  obtain ⟨-, -, b, hb, -, hv⟩ := c35_only_valid _ _ _ _ _ _ _ h
  cases hb
  exact hv

/-- A valid CHECK request. -/
theorem valid_check : ValidRequest (proc b!"CHECK" b!"c1" conf).getenv conf vi.supported .check := by
  have h : (Callback.check, requestArgs (proc b!"CHECK" b!"c1" conf).getenv conf)
      ∈ ((proc b!"CHECK" b!"c1" conf).pluginMain funcs vi [] other).calls := by decide +kernel
  obtain ⟨-, -, b, hb, -, hv⟩ := c35_only_valid _ _ _ _ _ _ _ h
  cases hb
  exact hv

/-- What happens to requests: in order, a valid ADD; the same in the plugin's own namespace; a valid CHECK; a container ID that
is not valid; a DEL whose callback fails; a CHECK of too old a version; a version the plugin does not support; stdin that is
not a document; an invalid network name; an unknown command; a GC, which needs 1.1.0. -/
example :
    [seen ((proc b!"ADD" b!"c1" conf).pluginMain funcs vi [] other), seen ((proc b!"ADD" b!"c1" conf).pluginMain funcs vi [] own),
     seen ((proc b!"CHECK" b!"c1" conf).pluginMain funcs vi [] own), seen ((proc b!"ADD" b!"/c1" conf).pluginMain funcs vi [] other),
     seen ((proc b!"DEL" b!"c1" conf).pluginMain funcs vi [] other), seen ((proc b!"CHECK" b!"c1" old).pluginMain funcs vi [] other),
     seen ((proc b!"ADD" b!"c1" b!"{\"cniVersion\":\"0.3.0\",\"name\":\"net\"}").pluginMain funcs vi [] other),
     seen ((proc b!"ADD" b!"c1" b!"{").pluginMain funcs vi [] other), seen ((proc b!"ADD" b!"c1" b!"{\"name\":\"-\"}").pluginMain funcs vi [] other),
     seen ((proc b!"FROB" b!"c1" conf).pluginMain funcs vi [] other), seen ((proc b!"GC" b!"c1" conf).pluginMain funcs vi [] other)] =
    [([.add], none), ([.add], some 8), ([.check], none), ([], some 4), ([.del], some 11), ([], some 1), ([], some 1), ([], some 6),
     ([], some 7), ([], some 4), ([], some 1)] := by decide +kernel

/-- The hypotheses of the theorems about the own namespace. -/
example : OwnNamespace own ((proc b!"ADD" b!"c1" conf).getenv b!"CNI_NETNS") ∧
    ¬ Overridden ((proc b!"ADD" b!"c1" conf).getenv b!"CNI_NETNS_OVERRIDE") ∧ Overridden b!"True" :=
  ⟨⟨1, rfl, rfl⟩, by unfold Overridden; rw [← toLower_iff (by decide)]; decide +kernel, by unfold Overridden; rw [← toLower_iff (by decide)]; decide +kernel⟩

/-- VERSION with nothing else in the environment. -/
example : ((({ getenv := env [(b!"CNI_COMMAND", b!"VERSION")], stdin := .ok b!"{}" } : SkelProc).pluginMain funcs vi [] own).stdout,
    (pluginSupports [b!"0.2.0", b!"1.0.0"]).toOption) =
    (b!"{\"cniVersion\":\"1.1.0\",\"supportedVersions\":[\"0.2.0\",\"1.0.0\"]}\n", some vi) := by decide +kernel

end SkelExample

end Verif
