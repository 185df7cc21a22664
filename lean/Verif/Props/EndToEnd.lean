/- C39: what the runtime executes is accepted by plugins built with skel. -/
import Verif.Spec.EndToEnd
import Verif.Props.Skel
import Verif.Props.Env
import Verif.Props.Query
import Verif.Libcni.Interp

namespace Verif
open Spec
set_option linter.unusedSimpArgs false

/-! ### the environment of the plugin's process -/

theorem hasPrefix_binds {k e : Bytes} (hk : 61 ∉ k) : hasPrefix e (k ++ b!"=") = true ↔ Binds e k (e.drop (k.length + 1)) := by
  unfold Binds
  rw [hasPrefix_iff]
  constructor
  · rintro ⟨r, rfl⟩
    refine ⟨?_, hk⟩
    simp [List.drop_append]
  · rintro ⟨h, _⟩
    exact ⟨e.drop (k.length + 1), by rw [List.append_assoc]; exact h⟩

theorem getenv_setOnce {env : List Bytes} {k v : Bytes} (h : SetOnce env k v) : getenv env k = v := by
  obtain ⟨a, e, b, rfl, hb, hn⟩ := h
  have hk := hb.2
  unfold getenv
  have : (a ++ e :: b).find? (fun e => hasPrefix e (k ++ b!"=")) = some e := by
    rw [List.find?_append]
    have h1 : a.find? (fun e => hasPrefix e (k ++ b!"=")) = none := by
      rw [List.find?_eq_none]
      intro x hx hp
      exact hn x (by simp [hx]) _ ((hasPrefix_binds hk).1 hp)
    have h2 : hasPrefix e (k ++ b!"=") = true := by
      rw [hasPrefix_binds hk, hb.1]
      exact ⟨by simp [List.drop_append], hk⟩
    rw [h1, List.find?_cons, h2]
    rfl
  rw [this]
  simp only
  rw [hb.1]
  simp [List.drop_append]

theorem getenv_unset {env : List Bytes} {k : Bytes} (hk : 61 ∉ k) (h : Unset env k) : getenv env k = [] := by
  unfold getenv
  have : env.find? (fun e => hasPrefix e (k ++ b!"=")) = none := by
    rw [List.find?_eq_none]
    intro x hx hp
    exact h x hx _ ((hasPrefix_binds hk).1 hp)
  rw [this]

/-- What a plugin's process finds in its environment. -/
theorem getenv_asEnv {enum : MapEnum} (he : IsMapOrder enum) (environ : List Bytes) (a : Args) :
    getenv (a.asEnv enum environ) b!"CNI_COMMAND" = a.command ∧ getenv (a.asEnv enum environ) b!"CNI_CONTAINERID" = a.containerID ∧
    getenv (a.asEnv enum environ) b!"CNI_NETNS" = a.netNS ∧
    getenv (a.asEnv enum environ) b!"CNI_ARGS" = (if a.pluginArgsStr = [] then pairsText a.pluginArgs else a.pluginArgsStr) ∧
    getenv (a.asEnv enum environ) b!"CNI_IFNAME" = a.ifName ∧ getenv (a.asEnv enum environ) b!"CNI_PATH" = a.path := by
  have h := (c40_plugin_env he environ a).1
  refine ⟨?_, ?_, ?_, ?_, ?_, ?_⟩ <;> (apply getenv_setOnce; apply h; simp)

/-! ### keys that are read as the name -/

/-- One more byte of a key whose folding is known: an ASCII letter other than k and s comes only from itself or its capital. -/
theorem foldKey_letter {k : Bytes} {x : UInt8} {t : Bytes} (hx : x ≠ 107 ∧ x ≠ 115) (h : foldKey k = x :: t) :
    ∃ c r, k = c :: r ∧ lowerByte c = x ∧ foldKey r = t := by
  unfold foldKey at h
  split at h
  · simp at h; exact absurd h.1.symm hx.1
  · simp at h; exact absurd h.1.symm hx.2
  · simp at h; exact ⟨_, _, rfl, h.1, h.2⟩
  · simp at h

theorem lowerByte_letter (c x : UInt8) (hx : isLower x = true) (h : lowerByte c = x) : c = x ∨ c < x := by
  have key : ∀ c : UInt8, isLower (lowerByte c) = true → c = lowerByte c ∨ c < lowerByte c :=
    forall_u8 (by decide +kernel)
  subst h
  exact key c hx

/-- Among the spellings of a lower-case word without k and s, the word itself is the last. -/
theorem foldKey_word {w : Bytes} (hw : ∀ x ∈ w, isLower x = true ∧ x ≠ 107 ∧ x ≠ 115) {k : Bytes} (h : foldKey k = w) :
    k = w ∨ Bytes.lt k w = true := by
  induction w generalizing k with
  | nil =>
    unfold foldKey at h
    split at h <;> simp_all
  | cons x t ih =>
    obtain ⟨hx, hn⟩ := hw x (List.mem_cons_self ..)
    obtain ⟨c, r, rfl, hc, hr⟩ := foldKey_letter hn h
    rcases lowerByte_letter c x hx hc with rfl | hlt
    · rcases ih (fun y hy => hw y (List.mem_cons_of_mem _ hy)) hr with rfl | hl
      · exact .inl rfl
      · right; simp [Bytes.lt, hl]
    · right; simp [Bytes.lt, hlt]

theorem foldKey_name {k : Bytes} (h : foldKey k = foldKey b!"name") : k = b!"name" ∨ Bytes.lt k b!"name" = true := by
  have : foldKey b!"name" = b!"name" := by decide +kernel
  rw [this] at h
  exact foldKey_word (by decide) h

/-- The last of the spellings of a key is what is read. -/
theorem reads_last {M : List (Bytes × Json)} (hs : M.Pairwise fun a b => Bytes.lt a.1 b.1 = true) {key s : Bytes}
    (hm : (key, .str s) ∈ M) (hty : ∀ m ∈ M, foldKey m.1 = foldKey key → m.2 = .null ∨ ∃ t, m.2 = .str t)
    (hl : ∀ m ∈ M, foldKey m.1 = foldKey key → m.1 = key ∨ Bytes.lt m.1 key = true) : ReadsString M key s := by
  refine ⟨hty, .inl ?_⟩
  obtain ⟨a, b, rfl⟩ := List.append_of_mem hm
  refine ⟨a, key, b, rfl, rfl, fun m hmb hk => ?_⟩
  have hlt : Bytes.lt key m.1 = true := (List.pairwise_cons.1 (List.pairwise_append.1 hs).2.1).1 m hmb
  rcases hl m (by simp [hmb]) hk with e | h
  · rw [e, Bytes.lt_irrefl] at hlt; cases hlt
  · rw [Bytes.lt_asymm h] at hlt; cases hlt

theorem wellTyped_string {M : List (Bytes × Json)} {c : PluginConf} (h : decPluginConf (.obj M) = some c) {key : Bytes}
    (hf : ∀ k, foldKey k = foldKey key → fieldMatch pluginConfFields k = some key) (hk : key ∈ pluginConfFields)
    (hok : ∀ v, fieldOK key v = (decStr [] v).isSome) :
    ∀ m ∈ M, foldKey m.1 = foldKey key → m.2 = .null ∨ ∃ t, m.2 = .str t := by
  intro m hm e
  have := (decPluginConf_isSome M).1 (by rw [h]; rfl) key hk m.2 (mem_getField.2 ⟨m.1, hm, hf _ e⟩)
  rw [hok] at this
  revert this
  cases m.2 <;> simp [decStr]

theorem fieldMatch_fold {key k : Bytes} (hk : ∀ n ∈ pluginConfFields, foldKey n = foldKey key → n = key) (hm : key ∈ pluginConfFields)
    (h : foldKey k = foldKey key) : fieldMatch pluginConfFields k = some key := by
  unfold fieldMatch
  split
  · rename_i hin
    rw [hk k hin h]
  · rw [List.find?_eq_some_iff_append]
    obtain ⟨a, b, e⟩ := List.append_of_mem hm
    have : ∃ a b, pluginConfFields = a ++ key :: b ∧ key ∉ a := by
      obtain ⟨a, b, e, hn⟩ := List.append_of_mem hm |> fun _ => (List.eq_append_cons_of_mem hm)
      exact ⟨a, b, e, hn⟩
    obtain ⟨a, b, e, hn⟩ := this
    refine ⟨by simp [h], a, b, e, fun n hn' => ?_⟩
    simp only [Bool.not_eq_true', decide_eq_false_iff_not]
    intro hf
    rw [h] at hf
    have := hk n (by rw [e]; simp [hn']) hf
    subst this
    exact hn hn'

theorem name_wellTyped {M : List (Bytes × Json)} {c : PluginConf} (h : decPluginConf (.obj M) = some c) :
    ∀ m ∈ M, foldKey m.1 = foldKey b!"name" → m.2 = .null ∨ ∃ t, m.2 = .str t :=
  wellTyped_string h (fun _ => fieldMatch_fold (by decide +kernel) (by decide +kernel)) (by decide +kernel)
    (fun v => by unfold fieldOK; simp)

theorem version_wellTyped {M : List (Bytes × Json)} {c : PluginConf} (h : decPluginConf (.obj M) = some c) :
    ∀ m ∈ M, foldKey m.1 = foldKey b!"cniVersion" → m.2 = .null ∨ ∃ t, m.2 = .str t :=
  wellTyped_string h (fun _ => fieldMatch_fold (by decide +kernel) (by decide +kernel)) (by decide +kernel)
    (fun v => by unfold fieldOK; simp)

theorem validName_utf8 {s : Bytes} (h : ValidName s) : sanitize s = s := by
  obtain ⟨c, r, rfl, hc, hr⟩ := h
  have ha : ∀ c : UInt8, Alnum c ∨ c = 95 ∨ c = 46 ∨ c = 45 → c < 0x80 := by
    have : ∀ c : UInt8, ((48 ≤ c ∧ c ≤ 57) ∨ (65 ≤ c ∧ c ≤ 90) ∨ (97 ≤ c ∧ c ≤ 122)) ∨ c = 95 ∨ c = 46 ∨ c = 45 → c < 0x80 :=
      forall_u8 (by decide +kernel)
    exact this
  refine sanitize_of_isUtf8 (isUtf8_of_ascii fun x hx => ?_)
  rcases List.mem_cons.1 hx with rfl | hx
  · exact ha _ (.inl hc)
  · exact ha _ (hr x hx)

/-- What is read from a document that was rewritten. -/
theorem rewritten_reads {orig stdin name ver : Bytes} {ms M : List (Bytes × Json)} (h0 : Json.parse orig = some (.obj ms))
    (h1 : Json.parse stdin = some (.obj M)) (hs : M.Pairwise fun a b => Bytes.lt a.1 b.1 = true)
    (hc : ∃ c, decPluginConf (.obj M) = some c) (hn : (b!"name", .str (sanitize name)) ∈ M)
    (hv : (b!"cniVersion", .str (sanitize ver)) ∈ M)
    (hk : ∀ k, foldKey k = foldKey b!"cniVersion" → k ≠ b!"cniVersion" → Keeps ms M k) (hname : ValidName name) :
    ConfName stdin name ∧ (∃ w, ConfVersion stdin w) ∧ (PlainVersion orig → ConfVersion stdin (effective (sanitize ver))) := by
  obtain ⟨c, hc⟩ := hc
  refine ⟨⟨M, .inl h1, ?_⟩, ?_, fun hp => ⟨M, sanitize ver, .inl h1, ?_, rfl⟩⟩
  · rw [validName_utf8 hname] at hn
    exact reads_last hs hn (name_wellTyped hc) (fun m _ => foldKey_name)
  · have hd : (decAll decStr [] (getField [b!"cniVersion"] b!"cniVersion" M)).isSome = true := by
      have key : ∀ (l : List Json) (i : Bytes), (∀ v ∈ l, v = .null ∨ ∃ t, v = .str t) → (decAll decStr i l).isSome = true := by
        intro l
        induction l with
        | nil => intro i _; simp [decAll]
        | cons v l ih =>
          intro i hl
          rcases hl v (List.mem_cons_self ..) with rfl | ⟨t, rfl⟩
          · simpa [decAll, decStr] using ih i (fun w hw => hl w (List.mem_cons_of_mem _ hw))
          · simpa [decAll, decStr] using ih t (fun w hw => hl w (List.mem_cons_of_mem _ hw))
      refine key _ _ fun v hv => ?_
      obtain ⟨k, hm, hf⟩ := mem_getField.1 hv
      exact version_wellTyped hc (k, v) hm ((fieldMatch_one _ _).1 hf)
    obtain ⟨s, hs⟩ := Option.isSome_iff_exists.1 hd
    exact ⟨_, M, s, .inl h1, (readsString_iff _ _ _).1 hs, rfl⟩
  · refine reads_last hs hv (version_wellTyped hc) fun m hm hf => .inl ?_
    by_cases he : m.1 = b!"cniVersion"
    · exact he
    · exfalso
      exact (hk m.1 hf he).2 (fun m' hm' e => he (e ▸ hp ms h0 m' hm' (e ▸ hf))) m hm rfl

theorem stdinSpec_reads {orig name ver stdin : Bytes} {prev : Option Json} {args : GoMap Json}
    (h : StdinSpec orig name ver prev args stdin) (hname : ValidName name) :
    ConfName stdin name ∧ (∃ w, ConfVersion stdin w) ∧ (PlainVersion orig → ConfVersion stdin (effective (sanitize ver))) := by
  obtain ⟨ms, M, rc, h0, h1, -, hs, hc, hn, hv, -, -, -, -, -, hk⟩ := h
  refine rewritten_reads h0 h1 hs hc hn hv (fun k hf hne => hk k ?_) hname
  intro hm
  simp only [List.mem_cons, List.not_mem_nil, or_false] at hm
  rcases hm with rfl | rfl | rfl | rfl
  · exact absurd hf (by decide +kernel)
  · exact hne rfl
  · exact absurd hf (by decide +kernel)
  · exact absurd hf (by decide +kernel)

theorem bareStdin_reads {orig name ver stdin : Bytes} {valid : Option (List GCAttachment)}
    (h : BareStdin orig name ver valid stdin) (hname : ValidName name) :
    ConfName stdin name ∧ (∃ w, ConfVersion stdin w) ∧ (PlainVersion orig → ConfVersion stdin (effective (sanitize ver))) := by
  obtain ⟨ms, M, h0, h1, -, hs, hc, hn, hv, -, -, hk⟩ := h
  refine rewritten_reads h0 h1 hs hc hn hv (fun k hf hne => hk k ?_) hname
  intro hm
  simp only [List.mem_cons, List.not_mem_nil, or_false] at hm
  rcases hm with rfl | rfl | rfl | rfl
  · exact absurd hf (by decide +kernel)
  · exact hne rfl
  · exact absurd hf (by decide +kernel)
  · exact absurd hf (by decide +kernel)

/-! ### the request is accepted -/

/-- Environment of an invocation for an attachment. -/
theorem process_env {enum : MapEnum} (he : IsMapOrder enum) {environ : List Bytes} {e : ExecEv} {t : SkelProc} (ht : ProcessOf enum environ e t)
    {c : CNIConfig} {verb : Bytes} {rt : RuntimeConf} (ha : e.args = .args (attachArgs c verb rt)) :
    t.getenv b!"CNI_COMMAND" = verb ∧ SeesAttachment c rt e.stdin (requestArgs t.getenv e.stdin) := by
  have h := getenv_asEnv he environ (attachArgs c verb rt)
  have e1 : t.getenv = getenv ((attachArgs c verb rt).asEnv enum environ) := by rw [ht.env, ha]; rfl
  rw [e1]
  exact ⟨h.1, h.2.1, h.2.2.1, h.2.2.2.2.1, h.2.2.2.1, h.2.2.2.2.2, rfl⟩

/-- A request with a valid environment and a readable configuration is passed on. -/
theorem passed {t : SkelProc} {v : Callback} {b name ver : Bytes} (he : EnvOK t.getenv v) (hs : t.stdin = .ok b) (hn : ConfName b name)
    (hvn : ValidName name) (hv : ConfVersion b ver) (hmin : ∀ u, minVersion v = some u → AtLeast ver u) :
    Passed t v ver (requestArgs t.getenv b) := by
  refine ⟨fun funcs vi about ns f hf hsup hm => ?_, fun funcs vi about ns hsup hm => ?_⟩
  · exact c35_valid_called t funcs vi about ns v b f hs ⟨he, ⟨name, hn, hvn⟩, ver, hv, hm, hmin⟩ (fun _ => hsup) hf
  · refine c36_version_mismatch t funcs vi about ns v b ver he hs ⟨name, hn, hvn⟩ hv (fun hne => ⟨?_, hsup⟩) (.inl hm)
    obtain ⟨u, hu⟩ := Option.ne_none_iff_exists'.1 hne
    obtain ⟨p, hp, _⟩ := hmin u hu
    exact ⟨p, hp⟩

/-- Every invocation for an attachment with valid names. -/
theorem invoked_accepted {enum : MapEnum} (hen : IsMapOrder enum) {environ : List Bytes} {e : ExecEv} {t : SkelProc}
    (ht : ProcessOf enum environ e t) {c : CNIConfig} {v : Callback} {name ver : Bytes} {rt : RuntimeConf} {p : PluginConfig}
    {prev : Option Result} {tr : Trace} (hv : OfAttachment v) (hin : Invoked c (verbText v) name ver rt p prev tr e)
    (hcid : ValidName rt.containerID) (hname : ValidName name) (hif : ValidIfName rt.ifName)
    (hns : v = .del ∨ rt.netNS ≠ []) (hpath : joinWith b!":" c.path ≠ []) :
    Accepted c v name ver rt p.bytes e t := by
  obtain ⟨hcmd, hsee⟩ := process_env hen ht hin.args
  have h1 : t.getenv b!"CNI_CONTAINERID" = rt.containerID := hsee.containerID
  have h2 : t.getenv b!"CNI_NETNS" = rt.netNS := hsee.netns
  have h3 : t.getenv b!"CNI_IFNAME" = rt.ifName := hsee.ifName
  have h4 : t.getenv b!"CNI_PATH" = joinWith b!":" c.path := hsee.path
  have n1 := validName_ne_nil hcid
  have n3 := validIfName_ne_nil hif
  have henv : EnvOK t.getenv v := by
    refine ⟨hcmd, ?_, fun _ => by rw [h1]; exact hcid, fun _ => by rw [h3]; exact hif⟩
    intro k hk
    rcases hv with rfl | rfl | rfl
    all_goals
      simp only [requiredVars, List.mem_cons, List.not_mem_nil, or_false] at hk
    · have n2 : rt.netNS ≠ [] := by rcases hns with h | h; cases h; exact h
      rcases hk with rfl | rfl | rfl | rfl
      · rw [h1]; exact n1
      · rw [h2]; exact n2
      · rw [h3]; exact n3
      · rw [h4]; exact hpath
    · have n2 : rt.netNS ≠ [] := by rcases hns with h | h; cases h; exact h
      rcases hk with rfl | rfl | rfl | rfl
      · rw [h1]; exact n1
      · rw [h2]; exact n2
      · rw [h3]; exact n3
      · rw [h4]; exact hpath
    · rcases hk with rfl | rfl | rfl
      · rw [h1]; exact n1
      · rw [h3]; exact n3
      · rw [h4]; exact hpath
  obtain ⟨doc, _, hst⟩ := hin.stdin
  obtain ⟨r1, r2, r3⟩ := stdinSpec_reads hst hname
  obtain ⟨w, hw⟩ := r2
  exact ⟨henv, ⟨r1, hname⟩, hsee, w, hw, fun hp => confVersion_unique hw (r3 hp), fun hmin => passed henv ht.stdin r1 hname hw hmin⟩

theorem intLit_ascii {s : Bytes} {n : Int} (h : IntLit s n) : ∀ c ∈ s, c < 0x80 := by
  obtain ⟨ds, _, hd, hs, _⟩ := intLit_iff.1 h
  have key : ∀ c : UInt8, isDigit c = true → c < 0x80 := forall_u8 (by decide +kernel)
  have hd' : ∀ c ∈ ds, c < 0x80 := fun c hc => key c (hd c hc)
  intro c hc
  rcases hs with ⟨rfl, _⟩ | ⟨rfl, _⟩ | ⟨rfl, _⟩
  · exact hd' c hc
  · rcases List.mem_cons.1 hc with rfl | hc
    · decide
    · exact hd' c hc
  · rcases List.mem_cons.1 hc with rfl | hc
    · decide
    · exact hd' c hc

/-- A version is plain text. -/
theorem reads_ascii {ver : Bytes} {p : Int × Int × Int} (h : Reads ver p) : sanitize ver = ver := by
  refine sanitize_of_isUtf8 (isUtf8_of_ascii ?_)
  cases h with
  | empty => simp
  | one h => exact intLit_ascii h
  | two h1 h2 =>
    intro c hc
    simp only [List.mem_append, List.mem_cons] at hc
    rcases hc with hc | rfl | hc
    · exact intLit_ascii h1 c hc
    · decide
    · exact intLit_ascii h2 c hc
  | three h1 h2 h3 =>
    intro c hc
    simp only [List.mem_append, List.mem_cons] at hc
    rcases hc with hc | rfl | hc | rfl | hc
    · exact intLit_ascii h1 c hc
    · decide
    · exact intLit_ascii h2 c hc
    · decide
    · exact intLit_ascii h3 c hc

/-- A version from 0.4.0 on is not the default. -/
theorem atLeast_effective {ver : Bytes} {t : Int × Int × Int} (h : AtLeast ver t) (ht : LexLt (0, 1, 0) t) : effective (sanitize ver) = ver := by
  obtain ⟨q, hq, hle⟩ := h
  rw [reads_ascii hq, effective, if_neg]
  rintro rfl
  have : q = (0, 1, 0) := c01_reads_unique hq .empty
  subst this
  unfold LexLe LexLt at hle
  unfold LexLt at ht
  rcases hle with rfl | hle
  · simp at ht
  · simp only at hle ht; omega

/-! ### C39 -/

/-- C39: every invocation by an ADD of a list with a namespace and a plugin path is accepted. -/
theorem c39_add_list (c : CNIConfig) (list : NetConfList) (rt : RuntimeConf) (hrt : rt.OK) (hns : rt.netNS ≠ [])
    (hpath : joinWith b!":" c.path ≠ []) (fs fs' : FS) (tr : Trace) (o : Out (Option Result))
    (h : Runs flt (c.addNetworkList list rt) fs tr fs' o) (enum : MapEnum) (hen : IsMapOrder enum) (environ : List Bytes)
    (i : Nat) (e : ExecEv) (hi : tr.execs[i]? = some e) (t : SkelProc) (ht : ProcessOf enum environ e t) :
    ∃ p, list.plugins[i]? = some p ∧ Accepted c .add list.name list.cniVersion rt p.bytes e t := by
  obtain ⟨rs, hch, -, -, hval, -⟩ := addNetworkList_runs hrt h
  obtain ⟨p, hp, hin⟩ := hch.invoked i e hi
  obtain ⟨h1, h2, h3⟩ := hval (fun hnil => by rw [hnil] at hi; simp at hi)
  exact ⟨p, hp, invoked_accepted hen ht (.inl rfl) hin h1 h2 h3 (.inr hns) hpath⟩

/-- C39 for the ADD of a single network. -/
theorem c39_add_network (c : CNIConfig) (net : PluginConfig) (rt : RuntimeConf) (hrt : rt.OK) (hns : rt.netNS ≠ [])
    (hpath : joinWith b!":" c.path ≠ []) (fs fs' : FS) (tr : Trace) (o : Out Result)
    (h : Runs flt (c.addNetwork net rt) fs tr fs' o) (enum : MapEnum) (hen : IsMapOrder enum) (environ : List Bytes)
    (e : ExecEv) (hi : e ∈ tr.execs) (t : SkelProc) (ht : ProcessOf enum environ e t) :
    Accepted c .add net.network.name net.network.cniVersion rt net.bytes e t := by
  obtain ⟨rs, hch, -, -, hval, -⟩ := addNetwork_runs hrt h
  obtain ⟨i, hi⟩ := List.mem_iff_getElem?.1 hi
  obtain ⟨p, hp, hin⟩ := hch.invoked i e hi
  obtain ⟨h1, h2, h3⟩ := hval (fun hnil => by rw [hnil] at hi; simp at hi)
  have : p = net := by simpa using List.mem_of_getElem? hp
  subst this
  exact invoked_accepted hen ht (.inl rfl) hin h1 h2 h3 (.inr hns) hpath

/-- C39 for CHECK, which does not validate names itself. If no plugin spells its version otherwise, the request gets to
every plugin that supports the version of the list. -/
theorem c39_check_list (c : CNIConfig) (list : NetConfList) (rt : RuntimeConf) (hrt : rt.OK) (hcid : ValidName rt.containerID)
    (hname : ValidName list.name) (hif : ValidIfName rt.ifName) (hns : rt.netNS ≠ [])
    (hpath : joinWith b!":" c.path ≠ []) (fs fs' : FS) (tr : Trace) (o : Out Unit)
    (h : Runs flt (c.checkNetworkList list rt) fs tr fs' o) (enum : MapEnum) (hen : IsMapOrder enum) (environ : List Bytes)
    (i : Nat) (e : ExecEv) (hi : tr.execs[i]? = some e) (t : SkelProc) (ht : ProcessOf enum environ e t) :
    ∃ p, list.plugins[i]? = some p ∧ Accepted c .check list.name list.cniVersion rt p.bytes e t ∧
      (PlainVersion p.bytes → Passed t .check list.cniVersion (requestArgs t.getenv e.stdin)) := by
  obtain ⟨-, h0, h1, h2⟩ := c15_check_list c list rt hrt fs fs' tr o h
  have hne : tr.execs ≠ [] := fun hnil => by rw [hnil] at hi; simp at hi
  by_cases ha : AtLeast list.cniVersion (0, 4, 0)
  · cases hd : list.disableCheck with
    | true => exact absurd (h1 ha hd).1 hne
    | false =>
      rcases h2 ha hd with ⟨tr1, prev, _, hsw, _⟩ | ⟨hn, _⟩
      · obtain ⟨p, hp, hin⟩ := hsw.invoked i e hi
        have hacc := invoked_accepted hen ht (.inr (.inl rfl)) hin hcid hname hif (.inr hns) hpath
        refine ⟨p, hp, hacc, fun hpl => ?_⟩
        obtain ⟨w, hw, hpw, hpass⟩ := hacc.version
        have hw' : w = list.cniVersion := by rw [hpw hpl, atLeast_effective ha (by simp [LexLt])]
        subst hw'
        exact hpass (fun u hu => by cases hu; exact ha)
      · exact absurd hn hne
  · exact absurd (h0 ha).1 hne

/-- C39 for the CHECK of a single network. -/
theorem c39_check_network (c : CNIConfig) (net : PluginConfig) (rt : RuntimeConf) (hrt : rt.OK) (hcid : ValidName rt.containerID)
    (hname : ValidName net.network.name) (hif : ValidIfName rt.ifName) (hns : rt.netNS ≠ [])
    (hpath : joinWith b!":" c.path ≠ []) (fs fs' : FS) (tr : Trace) (o : Out Unit)
    (h : Runs flt (c.checkNetwork net rt) fs tr fs' o) (enum : MapEnum) (hen : IsMapOrder enum) (environ : List Bytes)
    (e : ExecEv) (hi : e ∈ tr.execs) (t : SkelProc) (ht : ProcessOf enum environ e t) :
    Accepted c .check net.network.name net.network.cniVersion rt net.bytes e t ∧
      (PlainVersion net.bytes → Passed t .check net.network.cniVersion (requestArgs t.getenv e.stdin)) := by
  obtain ⟨-, h0, h2⟩ := c15_check_network c net rt hrt fs fs' tr o h
  have hne : tr.execs ≠ [] := fun hnil => by rw [hnil] at hi; cases hi
  by_cases ha : AtLeast net.network.cniVersion (0, 4, 0)
  · rcases h2 ha with ⟨tr1, prev, _, hsw, _⟩ | ⟨hn, _⟩
    · obtain ⟨i, hi⟩ := List.mem_iff_getElem?.1 hi
      obtain ⟨p, hp, hin⟩ := hsw.invoked i e hi
      have : p = net := by simpa using List.mem_of_getElem? hp
      subst this
      have hacc := invoked_accepted hen ht (.inr (.inl rfl)) hin hcid hname hif (.inr hns) hpath
      refine ⟨hacc, fun hpl => ?_⟩
      obtain ⟨w, hw, hpw, hpass⟩ := hacc.version
      have hw' : w = p.network.cniVersion := by rw [hpw hpl, atLeast_effective ha (by simp [LexLt])]
      subst hw'
      exact hpass (fun u hu => by cases hu; exact ha)
    · exact absurd hn hne
  · exact absurd (h0 ha).1 hne

/-- C39 for DEL, which does not validate names itself; no namespace is needed. -/
theorem c39_del_list (c : CNIConfig) (list : NetConfList) (rt : RuntimeConf) (hrt : rt.OK) (hcid : ValidName rt.containerID)
    (hname : ValidName list.name) (hif : ValidIfName rt.ifName)
    (hpath : joinWith b!":" c.path ≠ []) (fs fs' : FS) (tr : Trace) (o : Out Unit)
    (h : Runs flt (c.delNetworkList list rt) fs tr fs' o) (enum : MapEnum) (hen : IsMapOrder enum) (environ : List Bytes)
    (i : Nat) (e : ExecEv) (hi : tr.execs[i]? = some e) (t : SkelProc) (ht : ProcessOf enum environ e t) :
    ∃ p, list.plugins.reverse[i]? = some p ∧ Accepted c .del list.name list.cniVersion rt p.bytes e t := by
  by_cases hv : ∃ p, Reads list.cniVersion p
  · obtain ⟨⟨prev, hsw⟩, -⟩ := c14_del_list c list rt hrt fs fs' tr o h hv
    obtain ⟨p, hp, hin⟩ := hsw.invoked i e hi
    exact ⟨p, hp, invoked_accepted hen ht (.inr (.inr rfl)) hin hcid hname hif (.inl rfl) hpath⟩
  · have := (c14_del_bad_version c list rt hrt fs fs' tr o h hv).1
    rw [this] at hi
    simp at hi

/-- C39 for the DEL of a single network. -/
theorem c39_del_network (c : CNIConfig) (net : PluginConfig) (rt : RuntimeConf) (hrt : rt.OK) (hcid : ValidName rt.containerID)
    (hname : ValidName net.network.name) (hif : ValidIfName rt.ifName)
    (hpath : joinWith b!":" c.path ≠ []) (fs fs' : FS) (tr : Trace) (o : Out Unit)
    (h : Runs flt (c.delNetwork net rt) fs tr fs' o) (enum : MapEnum) (hen : IsMapOrder enum) (environ : List Bytes)
    (e : ExecEv) (hi : e ∈ tr.execs) (t : SkelProc) (ht : ProcessOf enum environ e t) :
    Accepted c .del net.network.name net.network.cniVersion rt net.bytes e t := by
  rcases delNetwork_runs hrt h with ⟨he, _⟩ | ⟨prev, hsw, _⟩
  · rw [he] at hi; cases hi
  · obtain ⟨i, hi⟩ := List.mem_iff_getElem?.1 hi
    obtain ⟨p, hp, hin⟩ := hsw.invoked i e hi
    have : p = net := by simpa using List.mem_of_getElem? hp
    subst this
    exact invoked_accepted hen ht (.inr (.inr rfl)) hin hcid hname hif (.inl rfl) hpath

/-- Invocations that are not about an attachment. -/
theorem bare_accepted {enum : MapEnum} (hen : IsMapOrder enum) {environ : List Bytes} {e : ExecEv} {t : SkelProc}
    (ht : ProcessOf enum environ e t) {c : CNIConfig} {v : Callback} {name ver : Bytes} {p : PluginConfig}
    {valid : Option (List GCAttachment)} (hv : ¬ OfAttachment v) (ha : e.args = .args (attachArgs c (verbText v) {}))
    (hst : BareStdin p.bytes name ver valid e.stdin) (hname : ValidName name) (hpath : joinWith b!":" c.path ≠ [])
    (hat : AtLeast ver (1, 1, 0)) :
    Accepted c v name ver {} p.bytes e t ∧ (PlainVersion p.bytes → Passed t v ver (requestArgs t.getenv e.stdin)) := by
  obtain ⟨hcmd, hsee⟩ := process_env hen ht ha
  have h4 : t.getenv b!"CNI_PATH" = joinWith b!":" c.path := hsee.path
  have henv : EnvOK t.getenv v := by
    refine ⟨hcmd, ?_, fun h => absurd h hv, fun h => absurd h hv⟩
    intro k hk
    have : k = b!"CNI_PATH" := by
      unfold OfAttachment at hv
      cases v <;> simp [requiredVars] at hv hk <;> exact hk
    subst this
    rw [h4]; exact hpath
  obtain ⟨r1, ⟨w, hw⟩, r3⟩ := bareStdin_reads hst hname
  refine ⟨⟨henv, ⟨r1, hname⟩, hsee, w, hw, fun hp => confVersion_unique hw (r3 hp), fun hmin => passed henv ht.stdin r1 hname hw hmin⟩,
    fun hpl => ?_⟩
  have r4 := r3 hpl
  rw [atLeast_effective hat (by simp [LexLt])] at r4
  refine passed henv ht.stdin r1 hname r4 fun u hu => ?_
  have : u = (1, 1, 0) := by
    unfold OfAttachment at hv
    cases v <;> simp [minVersion] at hv hu <;> exact hu.symm
  subst this
  exact hat

/-- C39 for the GC of the plugins of a list. -/
theorem c39_gc (c : CNIConfig) (list : NetConfList) (valid : Option (List GCAttachment)) (hname : ValidName list.name)
    (hpath : joinWith b!":" c.path ≠ []) (fs fs' : FS) (tr : Trace) (o : Out Unit)
    (h : Runs flt (c.gcNetworkList list valid) fs tr fs' o) (enum : MapEnum) (hen : IsMapOrder enum) (environ : List Bytes)
    (e : ExecEv) (hi : e ∈ tr.execs) (t : SkelProc) (ht : ProcessOf enum environ e t) (hc : t.getenv b!"CNI_COMMAND" = b!"GC") :
    ∃ p ∈ list.plugins, Accepted c .gc list.name list.cniVersion {} p.bytes e t ∧
      (PlainVersion p.bytes → Passed t .gc list.cniVersion (requestArgs t.getenv e.stdin)) := by
  rcases c22_execs c list valid fs fs' tr o h e hi with ⟨a, _, _, p, _, prev, hinv⟩ | ⟨hat, p, hp, hg⟩
  · have := (process_env hen ht hinv.args).1
    rw [hc] at this
    exact absurd this (by decide)
  · exact ⟨p, hp, bare_accepted hen ht (by simp [OfAttachment]) hg.args hg.stdin hname hpath hat⟩

/-- C39 for the DELs made by a GC: the names are those of the cache entry. -/
theorem c39_gc_del (c : CNIConfig) (list : NetConfList) (valid : Option (List GCAttachment)) (hname : ValidName list.name)
    (hpath : joinWith b!":" c.path ≠ []) (fs fs' : FS) (tr : Trace) (o : Out Unit)
    (hok : ∀ a, InCache c fs a → a.network = list.name → ValidName a.containerID ∧ ValidIfName a.ifName)
    (h : Runs flt (c.gcNetworkList list valid) fs tr fs' o) (enum : MapEnum) (hen : IsMapOrder enum) (environ : List Bytes)
    (e : ExecEv) (hi : e ∈ tr.execs) (t : SkelProc) (ht : ProcessOf enum environ e t) (hc : t.getenv b!"CNI_COMMAND" = b!"DEL") :
    ∃ a, InCache c fs a ∧ Stale list.name valid a ∧ ∃ p ∈ list.plugins, Accepted c .del list.name list.cniVersion (rtOf a) p.bytes e t := by
  rcases c22_execs c list valid fs fs' tr o h e hi with ⟨a, hin, hst, p, hp, prev, hinv⟩ | ⟨_, p, _, hg⟩
  · obtain ⟨h1, h2⟩ := hok a hin hst.1
    exact ⟨a, hin, hst, p, hp, invoked_accepted hen ht (.inr (.inr rfl)) hinv h1 hname h2 (.inl rfl) hpath⟩
  · have := (process_env hen ht hg.args).1
    rw [hc] at this
    exact absurd this (by decide)

theorem queried_execs {c : CNIConfig} {name ver : Bytes} {ps : List PluginConfig} {tr : Trace} {o : Out Unit} (h : Queried c name ver ps tr o) :
    ∀ e ∈ tr.execs, e.args = .args (attachArgs c b!"STATUS" {}) ∧ ∃ p ∈ ps, BareStdin p.bytes name ver none e.stdin := by
  induction h with
  | nil => simp
  | unsound _ => simp
  | crash _ => simp
  | notFound _ => intro e he; rw [execs_cons_find] at he; cases he
  | fails _ hs =>
    intro e he
    rw [execs_cons_find, execs_cons_exec] at he
    simp only [execs_nil, List.mem_singleton] at he
    subst he
    exact ⟨rfl, _, List.mem_cons_self .., hs⟩
  | next _ hs _ ih =>
    intro e he
    rw [execs_cons_find, execs_cons_exec] at he
    rcases List.mem_cons.1 he with rfl | he
    · exact ⟨rfl, _, List.mem_cons_self .., hs⟩
    · obtain ⟨h1, p, hp, h2⟩ := ih e he
      exact ⟨h1, p, List.mem_cons_of_mem _ hp, h2⟩

/-- C39 for STATUS. -/
theorem c39_status (c : CNIConfig) (list : NetConfList) (hname : ValidName list.name)
    (hpath : joinWith b!":" c.path ≠ []) (fs fs' : FS) (tr : Trace) (o : Out Unit)
    (h : Runs flt (c.getStatusNetworkList list) fs tr fs' o) (enum : MapEnum) (hen : IsMapOrder enum) (environ : List Bytes)
    (e : ExecEv) (hi : e ∈ tr.execs) (t : SkelProc) (ht : ProcessOf enum environ e t) :
    ∃ p ∈ list.plugins, Accepted c .status list.name list.cniVersion {} p.bytes e t ∧
      (PlainVersion p.bytes → Passed t .status list.cniVersion (requestArgs t.getenv e.stdin)) := by
  by_cases hat : AtLeast list.cniVersion (1, 1, 0)
  · obtain ⟨h1, p, hp, h2⟩ := queried_execs (c25_status c list hat fs fs' tr o h).2 e hi
    exact ⟨p, hp, bare_accepted hen ht (by simp [OfAttachment]) h1 h2 hname hpath hat⟩
  · rw [(c25_old c list hat fs fs' tr o h).1] at hi
    cases hi

/-! ### concrete cases -/

namespace Example

/-- The process a plugin runs in, started from one with a few variables of its own. -/
def proc (e : ExecEv) : SkelProc :=
  { getenv := getenv (e.args.env List.reverse [b!"HOME=/root", b!"CNI_IFNAME=old", b!"CNI_NETNS_OVERRIDE=1"]), stdin := .ok e.stdin }

theorem proc_of (e : ExecEv) : ProcessOf List.reverse [b!"HOME=/root", b!"CNI_IFNAME=old", b!"CNI_NETNS_OVERRIDE=1"] e (proc e) := ⟨rfl, rfl⟩

/-- A plugin for version 1.0.0. -/
def plugin : CNIFuncs := { add := some fun _ => .ok (), del := some fun _ => .ok (), check := some fun _ => .ok () }
def vinfo : PluginInfo := { supported := [b!"0.4.0", b!"1.0.0"] }
def nowhere : Namespaces := { at_ := fun _ => none, self := none }

/-- The error code of a run, if it failed. -/
def codeOf (r : SkelRun) : Option Nat :=
  match r.out with
  | .error e => some e.code
  | _ => none

/-- The calls of the plugin in a run, without the configuration. -/
def callsOf (e : ExecEv) : List (Callback × CmdArgs) :=
  ((proc e).pluginMain plugin vinfo [] nowhere).calls.map fun x => (x.1, { x.2 with stdinData := [] })

/-- What the plugin is to be told. -/
def told : CmdArgs :=
  { containerID := b!"c1", netns := b!"/ns", ifName := b!"eth0", args := b!"K=V", path := b!"/bin", netnsOverride := b!"1" }

/-- C39: an ADD of two plugins; both are called, with what the runtime was told. -/
example : ∃ tr fs' o, Runs false (cfg.addNetworkList list rt) noFiles tr fs' o ∧
    tr.execs.map callsOf = [[(.add, told)], [(.add, told)]] :=
  Prog.interp_exists (find := find) (exec := good) (fun tr _ _ => tr.execs.map callsOf) (by decide +kernel)

/-- The hypotheses of C39 hold for it. -/
example : rt.OK ∧ rt.netNS ≠ [] ∧ joinWith b!":" cfg.path ≠ [] ∧ IsMapOrder List.reverse ∧ PlainVersion plugA.bytes := by
  refine ⟨rt_ok, by decide, by decide, fun m => List.reverse_perm m, ?_⟩
  intro ms h
  have e : Json.parse plugA.bytes = some (.obj [(b!"type", .str b!"a"), (b!"x", .num b!"1")]) := by decide +kernel
  rw [e] at h
  cases h
  decide +kernel

/-- Without `PlainVersion` the plugin reads another version than the list's: `cniversion` comes after the `cniVersion` that is
put in, and the last one counts. So a plugin for the list's version refuses (code 1) what the runtime gives it. -/
theorem _root_.Verif.c39_other_spelling : ∃ tr fs' o,
    Runs false (cfg.addNetworkList { list with plugins := [{ network := { type := b!"a" }, bytes := b!"{\"type\":\"a\",\"cniversion\":\"0.2.0\"}" }] } rt)
      noFiles tr fs' o ∧
    tr.execs.map (fun e => (((proc e).pluginMain plugin vinfo [] nowhere).calls, codeOf ((proc e).pluginMain plugin vinfo [] nowhere))) = [([], some 1)] :=
  Prog.interp_exists (find := find) (exec := good) (fun tr _ _ => tr.execs.map (fun e =>
    (((proc e).pluginMain plugin vinfo [] nowhere).calls, codeOf ((proc e).pluginMain plugin vinfo [] nowhere)))) (by decide +kernel)

end Example

end Verif
