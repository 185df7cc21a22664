/- C46: which plugin failed can be seen from the error. -/
import Verif.Spec.ErrorText
import Verif.Props.Errors

namespace Verif
open Spec
variable {flt : Bool} {fs fs' : FS} {tr : Trace}

theorem description_names (p : PluginConfig) (a b : Bytes) (inner : GoErr) : NamesPlugin (.wrap (a ++ pluginDescription p.network ++ b) inner) p := by
  refine ⟨_, _, rfl, ?_, ?_⟩
  · unfold pluginDescription
    exact ⟨a ++ b!"type=", (if p.network.name = [] then [] else b!" name=" ++ p.network.name) ++ b, by simp⟩
  · unfold pluginDescription
    by_cases hn : p.network.name = []
    · rw [hn]; exact List.nil_infix
    · rw [if_neg hn]
      exact ⟨a ++ b!"type=" ++ p.network.type ++ b!" name=", b, by simp⟩

theorem addLoop_err {c : CNIConfig} {name ver : Bytes} {rt : RuntimeConf} (hrt : rt.OK) {ps : List PluginConfig} :
    ∀ {prev : Option Result} {fs fs' : FS} {tr : Trace} {g : GoErr}, Runs flt (c.addLoop name ver rt ps prev) fs tr fs' (.err g) →
    StoppedAt (fun e => ∃ r, Returned e r) ps tr g := by
  induction ps with
  | nil => intro prev fs fs' tr g h; cases (runs_done.1 h).2.2
  | cons net rest ih =>
    intro prev fs fs' tr g h
    obtain ⟨tr1, tr2, fs1, o1, rfl, h1, h2⟩ := runs_bind.1 h
    obtain ⟨o0, h0, rfl⟩ := runs_mapErr.1 h1
    obtain ⟨rfl, hc⟩ := addNetwork1_runs hrt h0
    cases o0 with
    | panic => obtain ⟨-, -, h⟩ := h2; cases h
    | err g0 =>
      obtain ⟨rfl, -, h⟩ := h2
      cases h
      refine ⟨0, net, rfl, description_names .., fun j hj => absurd hj (Nat.not_lt_zero j), ?_⟩
      intro j e _ hj
      rw [List.append_nil] at hj
      rcases hc with ⟨he, -⟩ | ⟨e0, he, -, ho, -⟩
      · rw [he] at hj; simp at hj
      · rw [he] at hj
        cases j with
        | succ j => simp at hj
        | zero =>
          simp only [List.getElem?_cons_zero, Option.some.injEq] at hj
          subst hj
          exact ⟨rfl, fun ⟨r, hr⟩ => by rw [addOutcome_ok.2 hr] at ho; cases ho⟩
    | ok r =>
      rcases hc with ⟨-, hno⟩ | ⟨e0, he, -, ho, -⟩
      · exact absurd rfl (hno r)
      obtain ⟨i, p, hp, hg, hb, ha⟩ := ih h2
      have hex : Trace.execs (tr1 ++ tr2) = e0 :: tr2.execs := by rw [execs_append, he]; rfl
      refine ⟨i + 1, p, by simpa using hp, hg, ?_, ?_⟩
      · intro j hj
        rw [hex]
        cases j with
        | zero => exact ⟨e0, rfl, r, addOutcome_ok.1 ho.symm⟩
        | succ j => simpa using hb j (by omega)
      · intro j e hj he'
        rw [hex] at he'
        cases j with
        | zero => omega
        | succ j =>
          obtain ⟨h1, h2⟩ := ha j e (by omega) (by simpa using he')
          exact ⟨by omega, h2⟩

/-- An ADD that fails says which plugin failed: the plugins before it were run and returned results, it was not run, or returned none, and
no other was run; the error names it. Or all plugins returned results, and the result could not be stored. -/
theorem c46_add_names (c : CNIConfig) (list : NetConfList) (rt : RuntimeConf) (hrt : rt.OK) (fs fs' : FS) (tr : Trace) (g : GoErr)
    (h : Runs flt (c.addNetworkList list rt) fs tr fs' (.err g)) :
    StoppedAt (fun e => ∃ r, Returned e r) list.plugins tr g ∨
    (tr.execs.length = list.plugins.length ∧ ∀ e ∈ tr.execs, ∃ r, Returned e r) := by
  unfold CNIConfig.addNetworkList at h
  simp only [prog_bind_eq] at h
  obtain ⟨tr1, tr2, fs1, o1, rfl, h1, h2⟩ := runs_bind.1 h
  cases o1 with
  | panic => obtain ⟨-, -, h⟩ := h2; cases h
  | err g =>
    obtain ⟨rfl, rfl, h⟩ := h2
    cases h
    rw [List.append_nil]
    exact .inl (addLoop_err hrt h1)
  | ok r =>
    obtain ⟨-, rs, hch, hok, -⟩ := addLoop_runs hrt h1
    obtain ⟨hlen, -⟩ := hok r rfl
    obtain ⟨tr3, tr4, fs2, o2, rfl, h3, h4⟩ := runs_bind.1 h2
    obtain ⟨o3, h5, rfl⟩ := runs_mapErr.1 h3
    obtain ⟨hne, -⟩ := runs_cacheAdd h5
    have h44 : tr4 = [] := by
      cases o3 with
      | ok u => exact (runs_done.1 h4).1
      | err g => exact h4.1
      | panic => exact h4.1
    subst h44
    have hex : Trace.execs (tr1 ++ (tr3 ++ [])) = tr1.execs := by rw [execs_append, List.append_nil, hne, List.append_nil]
    rw [hex]
    have hle : tr1.execs.length ≤ list.plugins.length := by
      rcases Nat.lt_or_ge list.plugins.length tr1.execs.length with hgt | hge
      · obtain ⟨p, hp, _⟩ := hch.invoked list.plugins.length _ (List.getElem?_eq_getElem hgt)
        simp at hp
      · exact hge
    have key : ∀ i, i < rs.length → ∃ e r, tr1.execs[i]? = some e ∧ Returned e r := fun i hi => by
      obtain ⟨e, h1, h2⟩ := hch.results i _ (List.getElem?_eq_getElem hi)
      exact ⟨e, _, h1, h2⟩
    have hge : list.plugins.length ≤ tr1.execs.length := by
      rcases Nat.lt_or_ge tr1.execs.length list.plugins.length with hlt | hge
      · obtain ⟨e, r, he, -⟩ := key tr1.execs.length (by omega)
        simp at he
      · exact hge
    refine .inr ⟨Nat.le_antisymm hle hge, fun e he => ?_⟩
    obtain ⟨i, hi, rfl⟩ := List.getElem_of_mem he
    obtain ⟨e, r, he, hr⟩ := key i (by omega)
    rw [List.getElem?_eq_getElem hi] at he
    cases he
    exact ⟨r, hr⟩

theorem delLoop_err {c : CNIConfig} {name ver : Bytes} {prev : Option Result} {rt : RuntimeConf} (hrt : rt.OK) {ps : List PluginConfig} :
    ∀ {fs fs' : FS} {tr : Trace} {g : GoErr}, Runs flt (c.delLoop name ver prev rt ps) fs tr fs' (.err g) →
    StoppedAt Succeeded ps tr g := by
  induction ps with
  | nil => intro fs fs' tr g h; cases (runs_done.1 h).2.2
  | cons net rest ih =>
    intro fs fs' tr g h
    obtain ⟨tr1, tr2, fs1, o1, rfl, h1, h2⟩ := runs_bind.1 h
    obtain ⟨o0, h0, rfl⟩ := runs_mapErr.1 h1
    obtain ⟨rfl, hc⟩ := runNetwork1_runs hrt h0
    cases o0 with
    | panic => obtain ⟨-, -, h⟩ := h2; cases h
    | err g0 =>
      obtain ⟨rfl, -, h⟩ := h2
      cases h
      refine ⟨0, net, rfl, description_names .., fun j hj => absurd hj (Nat.not_lt_zero j), ?_⟩
      intro j e _ hj
      rw [List.append_nil] at hj
      rcases hc with ⟨he, -⟩ | ⟨e0, he, -, ho⟩
      · rw [he] at hj; simp at hj
      · rw [he] at hj
        cases j with
        | succ j => simp at hj
        | zero =>
          simp only [List.getElem?_cons_zero, Option.some.injEq] at hj
          subst hj
          exact ⟨rfl, fun hr => by rw [runOutcome_ok.1.2 hr] at ho; cases ho⟩
    | ok r =>
      rcases hc with ⟨-, hno⟩ | ⟨e0, he, -, ho⟩
      · exact absurd rfl (hno r)
      obtain ⟨i, p, hp, hg, hb, ha⟩ := ih h2
      have hex : Trace.execs (tr1 ++ tr2) = e0 :: tr2.execs := by rw [execs_append, he]; rfl
      refine ⟨i + 1, p, by simpa using hp, hg, ?_, ?_⟩
      · intro j hj
        rw [hex]
        cases j with
        | zero => exact ⟨e0, rfl, runOutcome_ok.1.1 ho.symm⟩
        | succ j => simpa using hb j (by omega)
      · intro j e hj he'
        rw [hex] at he'
        cases j with
        | zero => omega
        | succ j =>
          obtain ⟨h1, h2⟩ := ha j e (by omega) (by simpa using he')
          exact ⟨by omega, h2⟩

/-- A DEL that fails says which plugin failed, counting from the last. (With a malformed version no plugin is run.) -/
theorem c46_del_names (c : CNIConfig) (list : NetConfList) (rt : RuntimeConf) (hrt : rt.OK) (fs fs' : FS) (tr : Trace) (g : GoErr)
    (hv : ∃ p, Reads list.cniVersion p) (h : Runs flt (c.delNetworkList list rt) fs tr fs' (.err g)) :
    StoppedAt Succeeded list.plugins.reverse tr g := by
  have rest : ∀ {prev : Option Result} {fs fs' : FS} {tr : Trace} {g : GoErr},
      Runs flt ((c.delLoop list.name list.cniVersion prev rt list.plugins.reverse).bind
        fun _ => (c.cacheDel list.name rt).attempt.bind fun _ => .done (.ok ())) fs tr fs' (.err g) →
      StoppedAt Succeeded list.plugins.reverse tr g := by
    intro prev fs fs' tr g h
    obtain ⟨tr1, tr2, fs1, o1, rfl, h1, h2⟩ := runs_bind.1 h
    cases o1 with
    | panic => obtain ⟨-, -, h⟩ := h2; cases h
    | err g => obtain ⟨rfl, -, h⟩ := h2; cases h; rw [List.append_nil]; exact delLoop_err hrt h1
    | ok u =>
      obtain ⟨tr3, tr4, fs2, o2, rfl, h3, h4⟩ := runs_bind.1 h2
      obtain ⟨o3, h5, rfl⟩ := runs_attempt.1 h3
      cases o3 with
      | panic => exact absurd rfl (runs_cacheDel h5).2.1
      | ok u => cases (runs_done.1 h4).2.2
      | err g => cases (runs_done.1 h4).2.2
  unfold CNIConfig.delNetworkList at h
  rcases gte_atLeast (v := list.cniVersion) reads_040 with ⟨hg, ha⟩ | ⟨hg, ha, _⟩ | ⟨g', hg, ha, hno⟩
  · rw [hg] at h
    obtain ⟨tr1, tr2, fs1, o1, rfl, h1, h2⟩ := runs_bind.1 h
    have hx : tr1.execs = [] ∧ ∀ g, o1 ≠ .err g := by
      unfold CNIConfig.delPrev at h1
      obtain ⟨tr3, tr4, fs2, o2, rfl, h3, h4⟩ := runs_bind.1 h1
      obtain ⟨o3, h5, rfl⟩ := runs_attempt.1 h3
      have hne := (runs_getCachedResult h5).2.1
      cases o3 with
      | ok u => obtain ⟨rfl, -, rfl⟩ := runs_done.1 h4; rw [List.append_nil]; exact ⟨hne, by simp⟩
      | panic => obtain ⟨rfl, -, rfl⟩ := h4; rw [List.append_nil]; exact ⟨hne, by simp⟩
      | err g =>
        obtain ⟨tr5, tr6, fs3, o4, rfl, h6, h7⟩ := runs_bind.1 h4
        obtain ⟨o5, h8, rfl⟩ := runs_attempt.1 h6
        have hd := runs_cacheDel h8
        cases o5 with
        | panic => exact absurd rfl hd.2.1
        | ok u => obtain ⟨rfl, -, rfl⟩ := runs_done.1 h7; rw [execs_append, hne, List.append_nil, hd.1]; exact ⟨rfl, by simp⟩
        | err g => obtain ⟨rfl, -, rfl⟩ := runs_done.1 h7; rw [execs_append, hne, List.append_nil, hd.1]; exact ⟨rfl, by simp⟩
    cases o1 with
    | panic => obtain ⟨-, -, h⟩ := h2; cases h
    | err g => exact absurd rfl (hx.2 g)
    | ok prev =>
      unfold StoppedAt
      rw [execs_append, hx.1, List.nil_append]
      exact rest h2
  · rw [hg] at h; exact rest h
  · exact absurd hv hno

/-! ### Examples: the second plugin fails -/
namespace Example

example : ∃ tr fs' g, Runs false (cfg.addNetworkList list Example.rt) noFiles tr fs' (.err g) ∧ tr.execs.length = 2 ∧
    g.msg = b!"plugin type=b failed (add): no" := by
  obtain ⟨tr, fs', o, h, e⟩ := Prog.interp_exists (flt := false) (p := cfg.addNetworkList list Example.rt) (fs := noFiles)
    (find := find) (exec := failB) (b := (2, some b!"plugin type=b failed (add): no"))
    (fun tr _ o => (tr.execs.length, match o with | .err g => some g.msg | _ => none)) (by decide +kernel)
  simp only [Prod.mk.injEq] at e
  cases o with
  | ok x => cases e.2
  | panic => cases e.2
  | err g => exact ⟨tr, fs', g, h, e.1, Option.some.inj e.2⟩

end Example

end Verif
