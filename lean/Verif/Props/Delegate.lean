/- C41: delegation. -/
import Verif.Spec.Delegate
import Verif.Props.EndToEnd

namespace Verif
open Spec
set_option linter.unusedSimpArgs false

variable {flt : Bool} {fs fs' : FS} {tr : Trace}

theorem binds_drop {e k v : Bytes} (h : Binds e k v) : e.drop (k.length + 1) = v := by
  rw [h.1]; simp [List.drop_append]

theorem getenv_value (environ : List Bytes) {k : Bytes} (hk : 61 ∉ k) : EnvValue environ k (getenv environ k) := by
  unfold getenv EnvValue
  cases hf : environ.find? (fun e => hasPrefix e (k ++ b!"=")) with
  | none =>
    refine .inr ⟨fun e he v hb => ?_, rfl⟩
    rw [List.find?_eq_none] at hf
    refine hf e he ((hasPrefix_binds hk).2 ?_)
    rw [binds_drop hb]; exact hb
  | some e =>
    rw [List.find?_eq_some_iff_append] at hf
    obtain ⟨hp, a, b, rfl, hn⟩ := hf
    refine .inl ⟨a, e, b, rfl, (hasPrefix_binds hk).1 hp, fun x hx v hb => ?_⟩
    have := hn x hx
    rw [(hasPrefix_binds hk).2 (by rw [binds_drop hb]; exact hb)] at this
    cases this

theorem envValue_unique {environ : List Bytes} {k v : Bytes} (hk : 61 ∉ k) (h : EnvValue environ k v) : getenv environ k = v := by
  rcases h with ⟨a, e, b, rfl, hb, hn⟩ | ⟨hu, rfl⟩
  · unfold getenv
    have h1 : (a ++ e :: b).find? (fun e => hasPrefix e (k ++ b!"=")) = some e := by
      rw [List.find?_eq_some_iff_append]
      refine ⟨(hasPrefix_binds hk).2 (by rw [binds_drop hb]; exact hb), a, b, rfl, fun x hx => ?_⟩
      simp only [Bool.not_eq_true', ← Bool.not_eq_true]
      exact fun hp => hn x hx _ ((hasPrefix_binds hk).1 hp)
    rw [h1]
    exact binds_drop hb
  · exact getenv_unset hk hu

theorem splitList_elements (s : Bytes) : PathElements s (splitList s) := by
  unfold splitList PathElements
  by_cases h : s = []
  · subst h; simp [joinWith]
  · rw [if_neg h]
    exact ⟨joinWith_splitOn 58 s, splitOn_pieces_no_sep 58 s, fun e => absurd e h⟩

/-- C41: DelegateAdd. The result is the one the delegate printed; an error of the delegate is returned unchanged. -/
theorem c41_add (environ : List Bytes) (plugin netconf : Bytes) (fs fs' : FS) (tr : Trace) (o : Out Result)
    (h : Runs flt (delegateAdd environ plugin netconf) fs tr fs' o) :
    fs' = fs ∧ ∃ x, Delegated environ b!"ADD" plugin netconf tr x ∧
      (∀ g, x = .error g → o = .err g) ∧
      ∀ e, x = .ok e → (∀ r, o = .ok r ↔ Returned e r) ∧ ∀ g, e.resp = .error g → o = .err g := by
  unfold delegateAdd at h
  simp only [prog_bind_eq] at h
  obtain ⟨tr1, tr2, fs1, o1, rfl, h1, h2⟩ := runs_bind.1 h
  obtain ⟨r, rfl, rfl, rfl⟩ := runs_findPlugin.1 h1
  have hv := getenv_value environ (k := b!"CNI_PATH") (by decide)
  have hp := splitList_elements (getenv environ b!"CNI_PATH")
  cases r with
  | error g =>
    obtain ⟨rfl, rfl, rfl⟩ := h2
    refine ⟨rfl, .error g, ⟨_, _, hv, hp, rfl, rfl⟩, (fun g' e => by cases e; rfl), (fun e he => by cases he)⟩
  | ok path =>
    obtain ⟨r, rfl, rfl, rfl⟩ := runs_execWithResult.1 h2
    refine ⟨rfl, .ok ⟨path, netconf, .delegate b!"ADD", r⟩, ⟨_, _, hv, hp, rfl, rfl, rfl, ?_⟩, (fun g' e => by cases e), ?_⟩
    · intro enum he
      exact c40_delegate_env he environ _
    · rintro e he
      cases he
      refine ⟨fun x => addOutcome_ok, fun g hg => ?_⟩
      simp only at hg
      subst hg
      rfl

theorem delegateNoResult_runs {environ : List Bytes} {plugin netconf verb : Bytes} {o : Out Unit}
    (h : Runs flt (delegateNoResult environ plugin netconf verb) fs tr fs' o) :
    fs' = fs ∧ ∃ x, Delegated environ verb plugin netconf tr x ∧
      (∀ g, x = .error g → o = .err g) ∧
      ∀ e, x = .ok e → (o = .ok () ↔ Succeeded e) ∧ ∀ g, e.resp = .error g → o = .err g := by
  unfold delegateNoResult at h
  simp only [prog_bind_eq] at h
  obtain ⟨tr1, tr2, fs1, o1, rfl, h1, h2⟩ := runs_bind.1 h
  obtain ⟨r, rfl, rfl, rfl⟩ := runs_findPlugin.1 h1
  have hv := getenv_value environ (k := b!"CNI_PATH") (by decide)
  have hp := splitList_elements (getenv environ b!"CNI_PATH")
  cases r with
  | error g =>
    obtain ⟨rfl, rfl, rfl⟩ := h2
    refine ⟨rfl, .error g, ⟨_, _, hv, hp, rfl, rfl⟩, (fun g' e => by cases e; rfl), (fun e he => by cases he)⟩
  | ok path =>
    obtain ⟨r, rfl, rfl, rfl⟩ := runs_execWithoutResult.1 h2
    refine ⟨rfl, .ok ⟨path, netconf, .delegate verb, r⟩, ⟨_, _, hv, hp, rfl, rfl, rfl, ?_⟩, (fun g' e => by cases e), ?_⟩
    · intro enum he
      exact c40_delegate_env he environ _
    · rintro e he
      cases he
      refine ⟨runOutcome_ok.1, fun g hg => ?_⟩
      simp only at hg
      subst hg
      rfl

/-- C41: DelegateCheck, DelegateDel, DelegateStatus and DelegateGC, which have no result. -/
theorem c41_check (environ : List Bytes) (plugin netconf : Bytes) (fs fs' : FS) (tr : Trace) (o : Out Unit)
    (h : Runs flt (delegateCheck environ plugin netconf) fs tr fs' o) :
    fs' = fs ∧ ∃ x, Delegated environ b!"CHECK" plugin netconf tr x ∧ (∀ g, x = .error g → o = .err g) ∧
      ∀ e, x = .ok e → (o = .ok () ↔ Succeeded e) ∧ ∀ g, e.resp = .error g → o = .err g := delegateNoResult_runs h

theorem c41_del (environ : List Bytes) (plugin netconf : Bytes) (fs fs' : FS) (tr : Trace) (o : Out Unit)
    (h : Runs flt (delegateDel environ plugin netconf) fs tr fs' o) :
    fs' = fs ∧ ∃ x, Delegated environ b!"DEL" plugin netconf tr x ∧ (∀ g, x = .error g → o = .err g) ∧
      ∀ e, x = .ok e → (o = .ok () ↔ Succeeded e) ∧ ∀ g, e.resp = .error g → o = .err g := delegateNoResult_runs h

theorem c41_status (environ : List Bytes) (plugin netconf : Bytes) (fs fs' : FS) (tr : Trace) (o : Out Unit)
    (h : Runs flt (delegateStatus environ plugin netconf) fs tr fs' o) :
    fs' = fs ∧ ∃ x, Delegated environ b!"STATUS" plugin netconf tr x ∧ (∀ g, x = .error g → o = .err g) ∧
      ∀ e, x = .ok e → (o = .ok () ↔ Succeeded e) ∧ ∀ g, e.resp = .error g → o = .err g := delegateNoResult_runs h

theorem c41_gc (environ : List Bytes) (plugin netconf : Bytes) (fs fs' : FS) (tr : Trace) (o : Out Unit)
    (h : Runs flt (delegateGC environ plugin netconf) fs tr fs' o) :
    fs' = fs ∧ ∃ x, Delegated environ b!"GC" plugin netconf tr x ∧ (∀ g, x = .error g → o = .err g) ∧
      ∀ e, x = .ok e → (o = .ok () ↔ Succeeded e) ∧ ∀ g, e.resp = .error g → o = .err g := delegateNoResult_runs h

/-! ### what the delegate sees -/

theorem oncePerName_last {environ : List Bytes} {k v : Bytes} (h : OncePerName environ) (hv : EnvValue environ k v) :
    LastBinding environ k v ∨ (Unset environ k ∧ v = []) := by
  rcases hv with ⟨a, e, b, rfl, hb, _⟩ | hu
  · refine .inl ⟨a, e, b, rfl, hb, fun x hx v' hb' => ?_⟩
    exact (List.pairwise_cons.1 (List.pairwise_append.1 h).2.1).1 x hx k v v' hb hb'
  · exact .inr hu

/-- C41: the delegate finds every variable but CNI_COMMAND as the delegating process does. -/
theorem c41_same_environment (environ : List Bytes) (honce : OncePerName environ) (verb plugin netconf : Bytes) (tr : Trace) (e : ExecEv)
    (h : Delegated environ verb plugin netconf tr (.ok e)) (enum : MapEnum) (hen : IsMapOrder enum) :
    getenv (e.args.env enum environ) b!"CNI_COMMAND" = verb ∧
      ∀ k, 61 ∉ k → k ≠ b!"CNI_COMMAND" → getenv (e.args.env enum environ) k = getenv environ k := by
  obtain ⟨pv, path, _, _, _, _, _, hov⟩ := h
  obtain ⟨h1, h2, h3, _⟩ := hov enum hen
  refine ⟨getenv_setOnce (h1 _ _ (by simp)), fun k hk hne => ?_⟩
  have hnot : k ∉ [(b!"CNI_COMMAND", verb)].map Prod.fst := by simpa using hne
  rcases oncePerName_last honce (getenv_value environ hk) with hl | ⟨hu, hz⟩
  · exact getenv_setOnce (h2 k _ hnot hl)
  · rw [hz]; exact getenv_unset hk (h3 k hnot hu)

/-- C41 and C39: a plugin that got a valid request and delegates its command to another plugin, with a configuration that is
valid for it, has the delegate called with its own arguments and that configuration. -/
theorem c41_delegate_accepts (environ : List Bytes) (honce : OncePerName environ) (v : Callback) (henv : EnvOK (getenv environ) v)
    (plugin netconf : Bytes) (tr : Trace) (e : ExecEv) (h : Delegated environ (verbText v) plugin netconf tr (.ok e))
    (name ver : Bytes) (hn : ConfName netconf name) (hvn : ValidName name) (hver : ConfVersion netconf ver)
    (hmin : ∀ u, minVersion v = some u → AtLeast ver u) (enum : MapEnum) (hen : IsMapOrder enum) (t : SkelProc)
    (ht : ProcessOf enum environ e t) :
    Passed t v ver (requestArgs (getenv environ) netconf) := by
  obtain ⟨hc, hsame⟩ := c41_same_environment environ honce _ plugin netconf tr e h enum hen
  obtain ⟨_, _, _, _, _, _, hst, _⟩ := h
  have key : ∀ k, 61 ∉ k → t.getenv k = getenv environ k := by
    intro k hk
    rw [ht.env]
    by_cases hkc : k = b!"CNI_COMMAND"
    · subst hkc; rw [hc, henv.command]
    · exact hsame k hk hkc
  have henv' : EnvOK t.getenv v := by
    refine ⟨?_, fun k hk => ?_, ?_, ?_⟩
    · rw [key _ (by decide)]; exact henv.command
    · have : 61 ∉ k := by
        cases v <;> simp only [requiredVars, List.mem_cons, List.not_mem_nil, or_false] at hk <;> (rcases hk with rfl | rfl | rfl | rfl <;> decide)
      rw [key k this]; exact henv.required k hk
    · rw [key _ (by decide)]; exact henv.cid
    · rw [key _ (by decide)]; exact henv.ifn
  have hs : t.stdin = .ok netconf := by rw [ht.stdin, hst]
  have := passed henv' hs hn hvn hver hmin
  have e1 : requestArgs t.getenv netconf = requestArgs (getenv environ) netconf := by
    unfold requestArgs
    rw [key _ (by decide), key _ (by decide), key _ (by decide), key _ (by decide), key _ (by decide), key _ (by decide)]
  rw [e1] at this
  exact this

/-! ### concrete cases -/

namespace Example

def pluginEnv : List Bytes :=
  [b!"CNI_COMMAND=ADD", b!"CNI_CONTAINERID=c1", b!"CNI_NETNS=/ns", b!"CNI_IFNAME=eth0", b!"CNI_PATH=/bin:/opt/bin", b!"HOME=/root"]

/-- A plugin that delegates its ADD as a DEL: the delegate is searched for on both elements of CNI_PATH and given the
environment with the command replaced, and the configuration as it is. -/
example : ∃ tr fs' o, Runs false (delegateDel pluginEnv b!"ipam" b!"{ }") noFiles tr fs' o ∧
    (tr.finds.map (fun f => (f.name, f.paths)), tr.execs.map (fun e => e.stdin :: e.args.env id pluginEnv), o.toOption.isSome) =
      ([(b!"ipam", [b!"/bin", b!"/opt/bin"])],
       [[b!"{ }", b!"CNI_COMMAND=DEL", b!"CNI_CONTAINERID=c1", b!"CNI_IFNAME=eth0", b!"CNI_NETNS=/ns", b!"CNI_PATH=/bin:/opt/bin", b!"HOME=/root"]], true) :=
  Prog.interp_exists (find := find) (exec := good) (fun tr _ o => (tr.finds.map (fun f => (f.name, f.paths)),
    tr.execs.map (fun e => e.stdin :: e.args.env id pluginEnv), o.toOption.isSome)) (by decide +kernel)

/-- The environment of that process has every name once. -/
example : OncePerName pluginEnv := by
  have key : ∀ a b : Bytes, (a.takeWhile (· ≠ 61)) ≠ (b.takeWhile (· ≠ 61)) → ∀ k v w, Binds a k v → ¬ Binds b k w := by
    rintro a b hne k v w ⟨rfl, hk⟩ ⟨rfl, _⟩
    apply hne
    have : ∀ r : Bytes, (k ++ 61 :: r).takeWhile (· ≠ 61) = k := by
      intro r
      rw [List.takeWhile_append_of_pos (by intro x hx; simp only [ne_eq, decide_not, Bool.not_eq_true', decide_eq_false_iff_not]; rintro rfl; exact hk hx)]
      simp
    rw [this, this]
  have hp : pluginEnv.Pairwise fun a b => (a.takeWhile (· ≠ 61)) ≠ (b.takeWhile (· ≠ 61)) := by decide +kernel
  exact hp.imp fun h => key _ _ h

end Example

end Verif
