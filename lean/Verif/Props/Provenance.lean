/- Clients using the same attachments concurrently: where previous results come from. -/
import Verif.Spec.Provenance
import Verif.Props.Amid
import Verif.Props.CrashRead
import Verif.Props.History

namespace Verif
open Spec

variable {α β : Type} {flt : Bool}

/-! ### the steps of one program -/

/-- The program `p` has made the calls `tr`, however they were answered, and what remains is `p'`. Proof device: models no code. -/
inductive Path : Prog α → Trace → Prog α → Prop
  | refl (p : Prog α) : Path p [] p
  | step {a : Act} {k : a.Resp → Prog α} {r : a.Resp} {tr : Trace} {p' : Prog α} (h : Path (k r) tr p') : Path (.op a k) (⟨a, r⟩ :: tr) p'

theorem path_done {o : Out α} {tr : Trace} {p' : Prog α} (h : Path (.done o) tr p') : tr = [] ∧ p' = .done o := by
  cases h; exact ⟨rfl, rfl⟩

theorem Path.all {P : Act → Prop} {p p' : Prog α} {tr : Trace} (h : Path p tr p') (hp : p.All P) : p'.All P := by
  induction h with
  | refl => exact hp
  | step _ ih => exact ih (hp.2 _)

theorem path_bind_op {p : Prog α} {f : α → Prog β} {a : Act} {k : a.Resp → Prog β} : ∀ {tr : Trace}, Path (p.bind f) tr (.op a k) →
    (∃ k1, Path p tr (.op a k1)) ∨ ∃ tr1 tr2 x, tr = tr1 ++ tr2 ∧ Path p tr1 (.done (.ok x)) ∧ Path (f x) tr2 (.op a k) := by
  induction p with
  | done o =>
    intro tr h
    cases o with
    | ok x => exact .inr ⟨[], tr, x, rfl, .refl _, h⟩
    | err e => exact absurd (path_done h).2 (by simp)
    | panic => exact absurd (path_done h).2 (by simp)
  | op b g ih =>
    intro tr h
    cases h with
    | refl => exact .inl ⟨_, .refl _⟩
    | step h =>
      rcases ih _ h with ⟨k1, h1⟩ | ⟨tr1, tr2, x, rfl, h1, h2⟩
      · exact .inl ⟨k1, .step h1⟩
      · exact .inr ⟨_, tr2, x, rfl, .step h1, h2⟩

theorem path_bind_done {p : Prog α} {f : α → Prog β} {y : β} : ∀ {tr : Trace}, Path (p.bind f) tr (.done (.ok y)) →
    ∃ tr1 tr2 x, tr = tr1 ++ tr2 ∧ Path p tr1 (.done (.ok x)) ∧ Path (f x) tr2 (.done (.ok y)) := by
  induction p with
  | done o =>
    intro tr h
    cases o with
    | ok x => exact ⟨[], tr, x, rfl, .refl _, h⟩
    | err e => exact absurd (path_done h).2 (by simp)
    | panic => exact absurd (path_done h).2 (by simp)
  | op b g ih =>
    intro tr h
    cases h with
    | step h =>
      obtain ⟨tr1, tr2, x, rfl, h1, h2⟩ := ih _ h
      exact ⟨_, tr2, x, rfl, .step h1, h2⟩

theorem path_attempt_op {p : Prog α} {a : Act} {k : a.Resp → Prog (Except GoErr α)} : ∀ {tr : Trace}, Path p.attempt tr (.op a k) →
    ∃ k1, Path p tr (.op a k1) := by
  induction p with
  | done o => intro tr h; cases o <;> exact absurd (path_done h).2 (by simp)
  | op b g ih =>
    intro tr h
    cases h with
    | refl => exact ⟨_, .refl _⟩
    | step h => exact (ih _ h).imp fun _ h => .step h

theorem path_attempt_done {p : Prog α} {o : Out (Except GoErr α)} : ∀ {tr : Trace}, Path p.attempt tr (.done o) →
    ∃ o1, Path p tr (.done o1) ∧ o = attemptOut o1 := by
  induction p with
  | done o1 => intro tr h; exact ⟨o1, by cases o1 <;> (obtain ⟨rfl, h⟩ := path_done h; cases h; exact ⟨.refl _, rfl⟩)⟩
  | op b g ih =>
    intro tr h
    cases h with
    | step h => exact (ih _ h).imp fun _ h => ⟨.step h.1, h.2⟩

theorem path_mapErr_op {p : Prog α} {f : GoErr → GoErr} {a : Act} {k : a.Resp → Prog α} : ∀ {tr : Trace}, Path (p.mapErr f) tr (.op a k) →
    ∃ k1, Path p tr (.op a k1) := by
  induction p with
  | done o => intro tr h; cases o <;> exact absurd (path_done h).2 (by simp)
  | op b g ih =>
    intro tr h
    cases h with
    | refl => exact ⟨_, .refl _⟩
    | step h => exact (ih _ h).imp fun _ h => .step h

theorem path_mapErr_done {p : Prog α} {f : GoErr → GoErr} {x : α} : ∀ {tr : Trace}, Path (p.mapErr f) tr (.done (.ok x)) →
    Path p tr (.done (.ok x)) := by
  induction p with
  | done o =>
    intro tr h
    cases o with
    | ok y => obtain ⟨rfl, h⟩ := path_done h; cases h; exact .refl _
    | err e => exact absurd (path_done h).2 (by simp)
    | panic => exact absurd (path_done h).2 (by simp)
  | op b g ih =>
    intro tr h
    cases h with
    | step h => exact .step (ih _ h)

/-- A program that calls plugins only could have run in any files. -/
theorem Path.plugins_runs {p : Prog α} {o : Out α} {tr : Trace} : Path p tr (.done o) → p.All Act.Plugins → ∀ fs, Runs flt p fs tr fs o := by
  induction p generalizing tr with
  | done o' => intro h _ fs; obtain ⟨rfl, h⟩ := path_done h; cases h; exact .done _ _
  | op a k ih =>
    intro h hp fs
    cases h with
    | step h =>
      refine .op (fs1 := fs) ?_ (ih _ h (hp.2 _) fs)
      have ha := hp.1
      cases a <;> first | exact .find .. | exact .exec .. | exact ha.elim

/-- The calls a program has made in a concurrent run lead to where it is. -/
theorem inter_path {ps ps' : List (Prog α)} {fs fs' : FS} {l : List (Nat × Move)} (h : Inter flt ps fs l ps' fs') (i : Nat) :
    ∀ {p : Prog α}, ps[i]? = some p → ∃ p', ps'[i]? = some p' ∧ Path p (callsBy i l) p' := by
  induction h with
  | refl ps fs => intro p hp; exact ⟨p, hp, .refl _⟩
  | @call ps ps' j a k fs fs1 fs' r l hi hs h ih =>
    intro p hp
    by_cases hij : j = i
    · subst hij
      rw [hi] at hp; cases hp
      obtain ⟨p', h1, h2⟩ := ih (p := k r) (by rw [set_getElem? _ _ _ _ hi, if_pos rfl])
      refine ⟨p', h1, ?_⟩
      have : callsBy j ((j, .call ⟨a, r⟩) :: l) = ⟨a, r⟩ :: callsBy j l := by simp [callsBy, Move.event?]
      rw [this]
      exact .step h2
    · obtain ⟨p', h1, h2⟩ := ih (p := p) (by rw [set_getElem? _ _ _ _ hi, if_neg hij]; exact hp)
      refine ⟨p', h1, ?_⟩
      have : callsBy i ((j, .call ⟨a, r⟩) :: l) = callsBy i l := by simp [callsBy, hij]
      rw [this]
      exact h2
  | @part ps ps' j w c k fs fs' l hi n h ih =>
    intro p hp
    obtain ⟨p', h1, h2⟩ := ih hp
    refine ⟨p', h1, ?_⟩
    have : callsBy i ((j, .part n) :: l) = callsBy i l := by
      unfold callsBy
      by_cases hij : j = i <;> simp [hij, Move.event?]
    rw [this]
    exact h2

/-- `b` is what may be seen of a file into which data with `K` has been written. Proof device: models no code. -/
def Visible (K : Bytes → Prop) (W : Prop) (b : Bytes) : Prop := ∃ c, K c ∧ (b = c ∨ (W ∧ Torn c b))

theorem visible_take {K : Bytes → Prop} {W : Prop} {c : Bytes} (hK : K c) (hW : W) (n : Nat) : Visible K W (c.take n) := by
  by_cases hn : n < c.length
  · exact ⟨c, hK, .inr ⟨hW, n, hn, rfl⟩⟩
  · exact ⟨c, hK, .inl (List.take_of_length_le (Nat.le_of_not_lt hn))⟩

/-- What is read from a file, and what is in it at the end, was written to it by one of the programs. -/
theorem inter_visible {q : Bytes} {K : Bytes → Prop} {W : Prop} (hf : flt = true → W) {ps ps' : List (Prog α)} {fs fs' : FS}
    {l : List (Nat × Move)} (h : Inter flt ps fs l ps' fs') :
    (∀ x ∈ l, ∀ n, x.2 = .part n → W) → (∀ b, fs q = some b → Visible K W b) →
    (∀ (j : Nat) p tr c k, ps[j]? = some p → Path p tr (.op (.writeFile q c) k) → tr <+: callsBy j l → K c) →
    (∀ b, fs' q = some b → Visible K W b) ∧ ∀ (i : Nat) b, (i, Move.call ⟨.readFile q, some b⟩) ∈ l → Visible K W b := by
  induction h with
  | refl ps fs => intro _ h0 _; exact ⟨h0, by simp⟩
  | @call ps ps' j a k fs fs1 fs' r l hi hs h ih =>
    intro hw h0 hK
    have hp : ps[j]? = some (.op a k) := hi
    obtain ⟨h1, h2⟩ := ih (fun x hx => hw x (List.mem_cons_of_mem _ hx)) (by
      intro b hb
      cases hs with
      | writeFile p c =>
        by_cases hpq : p = q
        · subst hpq
          rw [FS.set_same] at hb; cases hb
          exact ⟨_, hK j _ [] _ k hi (.refl _) List.nil_prefix, .inl rfl⟩
        · rw [FS.set_other _ _ (Ne.symm hpq)] at hb; exact h0 b hb
      | writeFileTorn p c n hflt =>
        by_cases hpq : p = q
        · subst hpq
          rw [FS.set_same] at hb; cases hb
          exact visible_take (hK j _ [] c k hi (.refl _) List.nil_prefix) (hf hflt) n
        · rw [FS.set_other _ _ (Ne.symm hpq)] at hb; exact h0 b hb
      | remove p hne =>
        by_cases hpq : p = q
        · subst hpq; rw [FS.set_same] at hb; cases hb
        · rw [FS.set_other _ _ (Ne.symm hpq)] at hb; exact h0 b hb
      | _ => exact h0 b hb) (by
      intro i p tr c k' hi' hpath hpre
      rw [set_getElem? _ _ _ _ hi] at hi'
      by_cases hij : j = i
      · subst hij
        rw [if_pos rfl] at hi'; cases hi'
        refine hK j _ (⟨a, r⟩ :: tr) c k' hi (.step hpath) ?_
        have : callsBy j ((j, .call ⟨a, r⟩) :: l) = ⟨a, r⟩ :: callsBy j l := by simp [callsBy, Move.event?]
        rw [this]
        exact List.cons_prefix_cons.2 ⟨rfl, hpre⟩
      · rw [if_neg hij] at hi'
        refine hK i _ tr c k' hi' hpath ?_
        have : callsBy i ((j, .call ⟨a, r⟩) :: l) = callsBy i l := by simp [callsBy, hij]
        rw [this]
        exact hpre)
    refine ⟨h1, fun i b hm => ?_⟩
    rcases List.mem_cons.1 hm with he | hm
    · simp only [Prod.mk.injEq, Move.call.injEq] at he
      obtain ⟨-, he⟩ := he
      cases hs with
      | readFile p => 
        obtain ⟨hp, hr⟩ := Event.mk.inj he
        cases hp
        exact h0 b (eq_of_heq hr).symm
      | readFileFails p =>
        obtain ⟨hp, hr⟩ := Event.mk.inj he
        cases hp
        cases hr
      | _ => exact absurd (Event.mk.inj he).1 (by simp)
    · exact h2 i b hm
  | @part ps ps' j w c k fs fs' l hi n h ih =>
    intro hw h0 hK
    have hW : W := hw _ (List.mem_cons_self ..) n rfl
    obtain ⟨h1, h2⟩ := ih (fun x hx => hw x (List.mem_cons_of_mem _ hx)) (by
      intro b hb
      by_cases hpq : w = q
      · subst hpq
        rw [FS.set_same] at hb; cases hb
        exact visible_take (hK j _ [] c k hi (.refl _) List.nil_prefix) hW n
      · rw [FS.set_other _ _ (Ne.symm hpq)] at hb; exact h0 b hb) (by
      intro i p tr c' k' hi' hpath hpre
      refine hK i _ tr c' k' hi' hpath ?_
      have : callsBy i ((j, .part n) :: l) = callsBy i l := by
        unfold callsBy
        by_cases hij : j = i <;> simp [hij, Move.event?]
      rw [this]
      exact hpre)
    refine ⟨h1, fun i b hm => ?_⟩
    rcases List.mem_cons.1 hm with he | hm
    · simp at he
    · exact h2 i b hm

/-! ### the operations -/

theorem path_session {ops : List ApiOp} {a : Act} : ∀ {tr : Trace} {k : a.Resp → Prog (List (Except GoErr Reply))},
    Path (session ops) tr (.op a k) → ∃ op ∈ ops, ∃ pre tr' k', tr = pre ++ tr' ∧ Path op.call tr' (.op a k') := by
  induction ops with
  | nil => intro tr k h; exact absurd (path_done h).2 (by simp)
  | cons op ops ih =>
    intro tr k h
    rcases path_bind_op h with ⟨k1, h1⟩ | ⟨tr1, tr2, x, rfl, -, h2⟩
    · obtain ⟨k2, h2⟩ := path_attempt_op h1
      exact ⟨op, List.mem_cons_self .., [], tr, k2, rfl, h2⟩
    · rcases path_bind_op h2 with ⟨k1, h1⟩ | ⟨tr3, tr4, y, rfl, -, h4⟩
      · obtain ⟨o, ho, pre, tr', k', rfl, hp⟩ := ih h1
        exact ⟨o, List.mem_cons_of_mem _ ho, tr1 ++ pre, tr', k', (List.append_assoc ..).symm, hp⟩
      · exact absurd (path_done h4).2 (by simp)

theorem path_run {ops : List ApiOp} {a : Act} {tr : Trace} {k : a.Resp → Prog Ended} (h : Path (Client.session ops).run tr (.op a k)) :
    ∃ op ∈ ops, ∃ pre tr' k', tr = pre ++ tr' ∧ Path op.call tr' (.op a k') := by
  rcases path_bind_op h with ⟨k1, h1⟩ | ⟨tr1, tr2, x, rfl, -, h2⟩
  · exact path_session h1
  · exact absurd (path_done h2).2 (by simp)

theorem path_reply {p : Prog α} {f : α → Out β} {a : Act} {k : a.Resp → Prog β} {tr : Trace}
    (h : Path (p.bind fun x => .done (f x)) tr (.op a k)) : ∃ k1, Path p tr (.op a k1) := by
  rcases path_bind_op h with h1 | ⟨tr1, tr2, x, rfl, -, h2⟩
  · exact h1
  · exact absurd (path_done h2).2 (by simp)

theorem Path.act {P : Act → Prop} {p : Prog α} {a : Act} {k : a.Resp → Prog α} {tr : Trace} (h : Path p tr (.op a k)) (hp : p.All P) : P a :=
  (h.all hp).1

/-- Before storing, only the directory has been made. -/
theorem path_cacheAdd {c : CNIConfig} {result : Option Result} {config name p content : Bytes} {rt : RuntimeConf}
    {tr : Trace} {k : (Act.writeFile p content).Resp → Prog Unit}
    (h : Path (c.cacheAdd result config name rt) tr (.op (.writeFile p content) k)) :
    ∃ info, cachedInfoOf result config name rt = some info ∧ c.cachePath name rt = .ok p ∧ content = info.json.print ∧
      ∀ fs, Runs false (c.cacheAdd result config name rt) fs (tr ++ [⟨.writeFile p content, true⟩]) (fs.set p (some content)) (.ok ()) := by
  unfold CNIConfig.cacheAdd at h ⊢
  cases hi : cachedInfoOf result config name rt with
  | none => rw [hi] at h; exact absurd (path_done h).2 (by simp)
  | some info =>
    rw [hi] at h
    simp only at h ⊢
    cases hc : c.cachePath name rt with
    | err e => rw [hc] at h; exact absurd (path_done h).2 (by simp)
    | panic => rw [hc] at h; exact absurd (path_done h).2 (by simp)
    | ok q =>
      rw [hc] at h
      simp only at h ⊢
      cases h with
      | @step _ _ r tr p' h =>
        cases r with
        | false => exact absurd (path_done h).2 (by simp)
        | true =>
          cases h with
          | refl =>
            exact ⟨info, rfl, rfl, rfl, fun fs => .op (.mkdirAll ..) (.op (.writeFile ..) (.done ..))⟩
          | @step _ _ r tr p' h => cases r <;> exact absurd (path_done h).2 (by simp)

/-- Only an ADD writes, only to the file of its attachment, and run alone with the same answers it would have stored the same. -/
theorem path_write {op : ApiOp} (hp : op.Proper) {tr : Trace} {p content : Bytes} {k : (Act.writeFile p content).Resp → Prog Reply}
    (h : Path op.call tr (.op (.writeFile p content) k)) :
    ∃ r conf info, op.added = some conf ∧ p = op.key ∧ cachedInfoOf r conf op.name op.rt = some info ∧ content = info.json.print ∧
      ∀ fs, Runs false op.call fs (tr ++ [⟨.writeFile p content, true⟩]) (fs.set p (some content)) (.ok (.result r)) := by
  have ro : ∀ {P : Act → Prop} {γ : Type} {q : Prog γ} {k : (Act.writeFile p content).Resp → Prog γ}, q.All P → Path q tr (.op (.writeFile p content) k) →
      P (.writeFile p content) := fun hq hpath => hpath.act hq
  have nope : ∀ {o : Out Bytes}, ¬ ((Act.writeFile p content).Plugins ∨ ∃ q, o = .ok q ∧ (Act.writeFile p content = .readFile q ∨ Act.writeFile p content = .remove q)) := by
    rintro o (h | ⟨q, -, h | h⟩)
    · exact h
    · cases h
    · cases h
  have nope2 : ∀ {o : Out Bytes}, ¬ ((Act.writeFile p content).Plugins ∨ ∃ q, o = .ok q ∧ Act.writeFile p content = .readFile q) := by
    rintro o (h | ⟨q, -, h⟩)
    · exact h
    · cases h
  cases op with
  | add c l rt =>
    obtain ⟨k1, h1⟩ := path_reply h
    unfold CNIConfig.addNetworkList at h1
    simp only [prog_bind_eq] at h1
    rcases path_bind_op h1 with ⟨k2, h2⟩ | ⟨tr1, tr2, r, rfl, h2, h3⟩
    · exact (h2.act addLoop_plugins).elim
    · obtain ⟨k3, h4⟩ := path_reply h3
      obtain ⟨k4, h5⟩ := path_mapErr_op h4
      obtain ⟨info, hi, hc, rfl, hr⟩ := path_cacheAdd h5
      have hpn : PlainNames l.name rt := hp.names
      rw [cachePath_eq hpn] at hc
      cases hc
      refine ⟨r, l.bytes, info, rfl, rfl, hi, rfl, fun fs => ?_⟩
      refine runs_bind.2 ⟨_, [], _, .ok r, (List.append_nil _).symm, ?_, Runs.done ..⟩
      · unfold CNIConfig.addNetworkList
        simp only [prog_bind_eq]
        refine runs_bind.2 ⟨tr1, tr2 ++ [⟨.writeFile _ _, true⟩], fs, _, List.append_assoc .., h2.plugins_runs addLoop_plugins fs, ?_⟩
        exact runs_bind.2 ⟨_, [], _, _, (List.append_nil _).symm, runs_mapErr.2 ⟨_, hr fs, rfl⟩, Runs.done ..⟩
  | addNetwork c n rt =>
    obtain ⟨k1, h1⟩ := path_reply h
    unfold CNIConfig.addNetwork at h1
    simp only [prog_bind_eq] at h1
    rcases path_bind_op h1 with ⟨k2, h2⟩ | ⟨tr1, tr2, r, rfl, h2, h3⟩
    · exact (h2.act addNetwork1_plugins).elim
    · obtain ⟨k3, h4⟩ := path_reply h3
      obtain ⟨k4, h5⟩ := path_mapErr_op h4
      obtain ⟨info, hi, hc, rfl, hr⟩ := path_cacheAdd h5
      have hpn : PlainNames n.network.name rt := hp.names
      rw [cachePath_eq hpn] at hc
      cases hc
      refine ⟨some r, n.bytes, info, rfl, rfl, hi, rfl, fun fs => ?_⟩
      refine runs_bind.2 ⟨_, [], _, .ok r, (List.append_nil _).symm, ?_, Runs.done ..⟩
      · unfold CNIConfig.addNetwork
        simp only [prog_bind_eq]
        refine runs_bind.2 ⟨tr1, tr2 ++ [⟨.writeFile _ _, true⟩], fs, _, List.append_assoc .., h2.plugins_runs addNetwork1_plugins fs, ?_⟩
        exact runs_bind.2 ⟨_, [], _, _, (List.append_nil _).symm, runs_mapErr.2 ⟨_, hr fs, rfl⟩, Runs.done ..⟩
  | del c l rt => obtain ⟨k1, h1⟩ := path_reply h; exact (nope (ro delNetworkList_acts h1)).elim
  | delNetwork c n rt => obtain ⟨k1, h1⟩ := path_reply h; exact (nope (ro delNetwork_acts h1)).elim
  | check c l rt => obtain ⟨k1, h1⟩ := path_reply h; exact (nope2 (ro checkNetworkList_acts h1)).elim
  | checkNetwork c n rt => obtain ⟨k1, h1⟩ := path_reply h; exact (nope2 (ro checkNetwork_acts h1)).elim
  | cachedResult c l rt => obtain ⟨k1, h1⟩ := path_reply h; obtain ⟨q, hq, -⟩ := ro getCachedResult_looks h1; cases hq
  | cachedConfig c l rt => obtain ⟨k1, h1⟩ := path_reply h; obtain ⟨q, hq, -⟩ := ro getCachedConfig_looks h1; cases hq

/-! ### executions -/

/-- What the cached result was made of: one reading of the file, or two. -/
def Readings (q ver : Bytes) (tr : Trace) (prev : Option Result) : Prop :=
  prev = none ∨ ∃ b1, (⟨.readFile q, some b1⟩ : Event) ∈ tr ∧
    ((∃ info, currentFormat b1 = some info ∧ loadResult (mapJson info.rawResult).print ver = .ok prev) ∨
      (currentFormat b1 = none ∧ ∃ b2, (⟨.readFile q, some b2⟩ : Event) ∈ tr ∧ loadResult b2 ver = .ok prev))

theorem Readings.mono {q ver : Bytes} {tr tr' : Trace} {prev : Option Result} (h : Readings q ver tr prev) (hs : ∀ e ∈ tr, e ∈ tr') :
    Readings q ver tr' prev := by
  rcases h with h | ⟨b1, h1, h | ⟨hc, b2, h2, h⟩⟩
  · exact .inl h
  · exact .inr ⟨b1, hs _ h1, .inl h⟩
  · exact .inr ⟨b1, hs _ h1, .inr ⟨hc, b2, hs _ h2, h⟩⟩

theorem path_getCachedResult {c : CNIConfig} {name ver : Bytes} {rt : RuntimeConf} {tr : Trace} {prev : Option Result}
    (hn : PlainNames name rt) (h : Path (c.getCachedResult name ver rt) tr (.done (.ok prev))) : Readings (entryPath c name rt) ver tr prev := by
  unfold CNIConfig.getCachedResult at h
  rw [cachePath_eq hn] at h
  simp only at h
  cases h with
  | @step _ _ r tr p' h =>
    cases r with
    | none => exact .inl (by cases (path_done h).2; rfl)
    | some b1 =>
      simp only at h
      split at h
      · rename_i hc
        cases h with
        | @step _ _ r tr p' h =>
          have he := (path_done h).2
          simp only [Prog.done.injEq] at he
          cases r with
          | none => exact .inl (by cases he; rfl)
          | some b2 => exact .inr ⟨b1, List.mem_cons_self .., .inr ⟨hc, b2, List.mem_cons_of_mem _ (List.mem_cons_self ..), he.symm⟩⟩
      · rename_i info hc
        have he := (path_done h).2
        exact .inr ⟨b1, List.mem_cons_self .., .inl ⟨info, hc, (Prog.done.inj he).symm⟩⟩

theorem path_lift {o : Out α} {f : α → Prog β} {tr : Trace} {a : Act} {k : a.Resp → Prog β} (h : Path ((Prog.lift o).bind f) tr (.op a k)) :
    ∃ x, o = .ok x ∧ Path (f x) tr (.op a k) := by
  cases o with
  | ok x => exact ⟨x, rfl, h⟩
  | err e => exact absurd (path_done h).2 (by simp)
  | panic => exact absurd (path_done h).2 (by simp)

theorem path_find {type : Bytes} {paths : List Bytes} {f : Bytes → Prog β} {tr : Trace} {a : Act} {k : a.Resp → Prog β} (ha : a.isExec = true)
    (h : Path ((findPlugin type paths).bind f) tr (.op a k)) :
    ∃ path tr', tr = ⟨.find type paths, (.ok path : Except GoErr Bytes)⟩ :: tr' ∧ Path (f path) tr' (.op a k) := by
  unfold findPlugin at h
  cases h with
  | refl => cases ha
  | @step _ _ r tr p' h =>
    cases r with
    | ok path => exact ⟨path, tr, rfl, h⟩
    | error e => exact absurd (path_done h).2 (by simp)

theorem path_runNetwork1 {c : CNIConfig} {verb name ver : Bytes} {net : PluginConfig} {prev : Option Result} {rt : RuntimeConf} (hrt : rt.OK)
    {tr : Trace} {path stdin : Bytes} {args : PArgs} {k : (Act.exec path stdin args).Resp → Prog Unit}
    (h : Path (c.runNetwork1 verb name ver net prev rt) tr (.op (.exec path stdin args) k)) (r : Except GoErr Bytes) :
    Invoked c verb name ver rt net prev tr ⟨path, stdin, args, r⟩ := by
  unfold CNIConfig.runNetwork1 at h
  simp only [prog_bind_eq] at h
  obtain ⟨path', tr', rfl, h1⟩ := path_find rfl h
  obtain ⟨conf, hb, h2⟩ := path_lift h1
  unfold execWithoutResult at h2
  cases h2 with
  | refl => exact ⟨List.mem_cons_self .., rfl, build_stdin hrt hb⟩
  | @step _ _ r tr p' h => cases r <;> exact absurd (path_done h).2 (by simp)

theorem invoked_mono {c : CNIConfig} {verb name ver : Bytes} {net : PluginConfig} {prev : Option Result} {rt : RuntimeConf} {tr tr' : Trace}
    {e : ExecEv} (h : Invoked c verb name ver rt net prev tr e) (hs : ∀ f ∈ tr, f ∈ tr') : Invoked c verb name ver rt net prev tr' e := by
  refine ⟨?_, h.args, h.stdin⟩
  have := h.found
  simp only [Trace.finds, List.mem_filterMap] at this ⊢
  obtain ⟨f, hf, he⟩ := this
  exact ⟨f, hs f hf, he⟩

theorem path_addNetwork1 {c : CNIConfig} {name ver : Bytes} {net : PluginConfig} {prev : Option Result} {rt : RuntimeConf} (hrt : rt.OK)
    {tr : Trace} {path stdin : Bytes} {args : PArgs} {k : (Act.exec path stdin args).Resp → Prog Result}
    (h : Path (c.addNetwork1 name ver net prev rt) tr (.op (.exec path stdin args) k)) (r : Except GoErr Bytes) :
    Invoked c b!"ADD" name ver rt net prev tr ⟨path, stdin, args, r⟩ := by
  unfold CNIConfig.addNetwork1 at h
  simp only [prog_bind_eq] at h
  obtain ⟨path', tr', rfl, h1⟩ := path_find rfl h
  obtain ⟨-, -, h2⟩ := path_lift h1
  obtain ⟨conf, hb, h3⟩ := path_lift h2
  unfold execWithResult at h3
  cases h3 with
  | refl => exact ⟨List.mem_cons_self .., rfl, build_stdin hrt hb⟩
  | @step _ _ r tr p' h =>
    cases r with
    | ok out => exact absurd (path_done h).2 (by simp)
    | error e => exact absurd (path_done h).2 (by simp)

theorem path_addNetwork1_done {c : CNIConfig} {name ver : Bytes} {net : PluginConfig} {prev : Option Result} {rt : RuntimeConf}
    {tr : Trace} {r : Result} (h : Path (c.addNetwork1 name ver net prev rt) tr (.done (.ok r))) : ∃ e ∈ tr.execs, Returned e r := by
  unfold CNIConfig.addNetwork1 at h
  simp only [prog_bind_eq] at h
  obtain ⟨tr1, tr2, path, rfl, -, h1⟩ := path_bind_done h
  obtain ⟨tr3, tr4, -, rfl, -, h2⟩ := path_bind_done h1
  obtain ⟨tr5, tr6, conf, rfl, -, h3⟩ := path_bind_done h2
  unfold execWithResult at h3
  cases h3 with
  | @step _ _ x tr p' h =>
    cases x with
    | error e => exact absurd (path_done h).2 (by simp)
    | ok out =>
      have he := (path_done h).2
      simp only [Prog.done.injEq] at he
      refine ⟨⟨path, conf.bytes, c.args b!"ADD" rt, .ok out⟩, ?_, out, rfl, he.symm⟩
      simp only [execs_append, List.mem_append]
      exact .inr (.inr (.inr (List.mem_cons_self ..)))

theorem path_addLoop {c : CNIConfig} {name ver : Bytes} {rt : RuntimeConf} (hrt : rt.OK) {path stdin : Bytes} {args : PArgs}
    (r : Except GoErr Bytes) {ps : List PluginConfig} :
    ∀ {first : Option Result} {tr : Trace} {k : (Act.exec path stdin args).Resp → Prog (Option Result)},
    Path (c.addLoop name ver rt ps first) tr (.op (.exec path stdin args) k) →
    ∃ p ∈ ps, ∃ prev, (prev = first ∨ ∃ e ∈ tr.execs, ∃ x, Returned e x ∧ prev = some x) ∧
      Invoked c b!"ADD" name ver rt p prev tr ⟨path, stdin, args, r⟩ := by
  induction ps with
  | nil => intro first tr k h; exact absurd (path_done h).2 (by simp)
  | cons p ps ih =>
    intro first tr k h
    unfold CNIConfig.addLoop at h
    rcases path_bind_op h with ⟨k1, h1⟩ | ⟨tr1, tr2, x, rfl, h1, h2⟩
    · obtain ⟨k2, h2⟩ := path_mapErr_op h1
      exact ⟨p, List.mem_cons_self .., first, .inl rfl, path_addNetwork1 hrt h2 r⟩
    · obtain ⟨q, hq, prev, hprev, hinv⟩ := ih h2
      refine ⟨q, List.mem_cons_of_mem _ hq, prev, .inr ?_, invoked_mono hinv fun f hf => List.mem_append.2 (.inr hf)⟩
      rcases hprev with rfl | ⟨e, he, y, hy, rfl⟩
      · obtain ⟨e, he, hret⟩ := path_addNetwork1_done (path_mapErr_done h1)
        exact ⟨e, by rw [execs_append]; exact List.mem_append.2 (.inl he), x, hret, rfl⟩
      · exact ⟨e, by rw [execs_append]; exact List.mem_append.2 (.inr he), y, hy, rfl⟩

theorem path_checkLoop {c : CNIConfig} {name ver : Bytes} {rt : RuntimeConf} (hrt : rt.OK) {path stdin : Bytes} {args : PArgs}
    (r : Except GoErr Bytes) {prev : Option Result} {ps : List PluginConfig} :
    ∀ {tr : Trace} {k : (Act.exec path stdin args).Resp → Prog Unit},
    Path (c.checkLoop name ver prev rt ps) tr (.op (.exec path stdin args) k) →
    ∃ p ∈ ps, Invoked c b!"CHECK" name ver rt p prev tr ⟨path, stdin, args, r⟩ := by
  induction ps with
  | nil => intro tr k h; exact absurd (path_done h).2 (by simp)
  | cons p ps ih =>
    intro tr k h
    unfold CNIConfig.checkLoop at h
    rcases path_bind_op h with ⟨k1, h1⟩ | ⟨tr1, tr2, x, rfl, h1, h2⟩
    · exact ⟨p, List.mem_cons_self .., path_runNetwork1 hrt h1 r⟩
    · obtain ⟨q, hq, hinv⟩ := ih h2
      exact ⟨q, List.mem_cons_of_mem _ hq, invoked_mono hinv fun f hf => List.mem_append.2 (.inr hf)⟩

theorem path_delLoop {c : CNIConfig} {name ver : Bytes} {rt : RuntimeConf} (hrt : rt.OK) {path stdin : Bytes} {args : PArgs}
    (r : Except GoErr Bytes) {prev : Option Result} {ps : List PluginConfig} :
    ∀ {tr : Trace} {k : (Act.exec path stdin args).Resp → Prog Unit},
    Path (c.delLoop name ver prev rt ps) tr (.op (.exec path stdin args) k) →
    ∃ p ∈ ps, Invoked c b!"DEL" name ver rt p prev tr ⟨path, stdin, args, r⟩ := by
  induction ps with
  | nil => intro tr k h; exact absurd (path_done h).2 (by simp)
  | cons p ps ih =>
    intro tr k h
    unfold CNIConfig.delLoop at h
    rcases path_bind_op h with ⟨k1, h1⟩ | ⟨tr1, tr2, x, rfl, h1, h2⟩
    · obtain ⟨k2, h2⟩ := path_mapErr_op h1
      exact ⟨p, List.mem_cons_self .., path_runNetwork1 hrt h2 r⟩
    · obtain ⟨q, hq, hinv⟩ := ih h2
      exact ⟨q, List.mem_cons_of_mem _ hq, invoked_mono hinv fun f hf => List.mem_append.2 (.inr hf)⟩

theorem path_delPrev {c : CNIConfig} {list : NetConfList} {rt : RuntimeConf} {tr : Trace} {prev : Option Result}
    (hn : PlainNames list.name rt) (h : Path (c.delPrev list rt) tr (.done (.ok prev))) :
    Readings (entryPath c list.name rt) list.cniVersion tr prev := by
  obtain ⟨tr1, tr2, x, rfl, h1, h2⟩ := path_bind_done h
  obtain ⟨o1, h3, he⟩ := path_attempt_done h1
  cases o1 with
  | panic => cases he
  | err e =>
    cases he
    obtain ⟨tr3, tr4, y, rfl, -, h4⟩ := path_bind_done h2
    have := (path_done h4).2
    cases this
    exact .inl rfl
  | ok p =>
    cases he
    have := (path_done h2).2
    cases this
    exact (path_getCachedResult hn h3).mono fun e he => List.mem_append.2 (.inl he)

theorem path_bind_right {p : Prog α} {f : α → Prog β} {a : Act} {k : a.Resp → Prog β} {tr : Trace} {P : Act → Prop} (hp : p.All P) (ha : ¬ P a)
    (h : Path (p.bind f) tr (.op a k)) : ∃ tr1 tr2 x, tr = tr1 ++ tr2 ∧ Path p tr1 (.done (.ok x)) ∧ Path (f x) tr2 (.op a k) := by
  rcases path_bind_op h with ⟨k1, h1⟩ | h
  · exact absurd (h1.act hp) ha
  · exact h

theorem path_bind_left {p : Prog α} {f : α → Prog β} {a : Act} {k : a.Resp → Prog β} {tr : Trace} {P : Act → Prop} (hf : ∀ x, (f x).All P)
    (ha : ¬ P a) (h : Path (p.bind f) tr (.op a k)) : ∃ k1, Path p tr (.op a k1) := by
  rcases path_bind_op h with h1 | ⟨tr1, tr2, x, rfl, -, h2⟩
  · exact h1
  · exact absurd (h2.act (hf x)) ha

/-- Every execution is of a plugin of the operation, with the arguments of its attachment; an ADD passes on what its own plugins
returned, the others pass on what they have read. -/
theorem path_exec {op : ApiOp} (hrt : op.rt.OK) (hn : PlainNames op.name op.rt) {tr : Trace} {path stdin : Bytes} {args : PArgs}
    {k : (Act.exec path stdin args).Resp → Prog Reply} (h : Path op.call tr (.op (.exec path stdin args) k)) (r : Except GoErr Bytes) :
    ∃ verb p prev, op.verb = some verb ∧ p ∈ op.plugins ∧ Invoked op.cfg verb op.name op.version op.rt p prev tr ⟨path, stdin, args, r⟩ ∧
      (op.added ≠ none → prev = none ∨ ∃ e ∈ tr.execs, ∃ x, Returned e x ∧ prev = some x) ∧
      (op.added = none → Readings op.key op.version tr prev) := by
  have tailDel : ∀ {c : CNIConfig} {name : Bytes} {rt : RuntimeConf},
      ((c.cacheDel name rt).attempt.bind fun _ => Prog.done (.ok ())).All fun a => a.isExec = false := by
    intro c name rt
    refine Prog.All.bind (Prog.All.attempt ?_) fun _ => trivial
    unfold CNIConfig.cacheDel
    split
    · exact ⟨rfl, fun r => by cases r <;> trivial⟩
    · trivial
  have storing : ∀ {c : CNIConfig} {result : Option Result} {config name : Bytes} {rt : RuntimeConf},
      (c.cacheAdd result config name rt).All fun a => a.isExec = false := by
    intro c result config name rt
    unfold CNIConfig.cacheAdd
    split
    · trivial
    · split
      · exact ⟨rfl, fun r => by cases r <;> first | trivial | exact ⟨rfl, fun r => by cases r <;> trivial⟩⟩
      · trivial
      · trivial
  have tail : ∀ {t1 t2 : Trace} (e : Event), e ∈ t2 → e ∈ t1 ++ t2 := fun e he => List.mem_append.2 (.inr he)
  have head : ∀ {t1 t2 : Trace} (e : Event), e ∈ t1 → e ∈ t1 ++ t2 := fun e he => List.mem_append.2 (.inl he)
  have looks : ∀ {c : CNIConfig} {name ver : Bytes} {rt : RuntimeConf}, (c.getCachedResult name ver rt).All fun a => a.isExec = false :=
    getCachedResult_looks.mono fun a ⟨p, hp, _⟩ => by rw [hp]; rfl
  cases op with
  | cachedResult c l rt =>
    obtain ⟨k1, h1⟩ := path_reply h
    exact absurd (h1.act looks) (by simp [Act.isExec])
  | cachedConfig c l rt =>
    obtain ⟨k1, h1⟩ := path_reply h
    obtain ⟨q, hq, -⟩ := h1.act getCachedConfig_looks
    cases hq
  | add c l rt =>
    obtain ⟨k1, h1⟩ := path_reply h
    unfold CNIConfig.addNetworkList at h1
    simp only [prog_bind_eq] at h1
    obtain ⟨k2, h2⟩ := path_bind_left (P := fun a => a.isExec = false) (by
      intro x; exact storing.mapErr.bind fun _ => True.intro)
      (by simp [Act.isExec]) h1
    obtain ⟨p, hm, prev, hprev, hinv⟩ := path_addLoop hrt r h2
    exact ⟨_, p, prev, rfl, hm, hinv, fun _ => hprev, fun ha => by cases ha⟩
  | addNetwork c n rt =>
    obtain ⟨k1, h1⟩ := path_reply h
    unfold CNIConfig.addNetwork at h1
    simp only [prog_bind_eq] at h1
    obtain ⟨k2, h2⟩ := path_bind_left (P := fun a => a.isExec = false) (by
      intro x; exact storing.mapErr.bind fun _ => True.intro)
      (by simp [Act.isExec]) h1
    exact ⟨_, n, none, rfl, List.mem_cons_self .., path_addNetwork1 hrt h2 r, fun _ => .inl rfl, fun ha => by cases ha⟩
  | del c l rt =>
    obtain ⟨k1, h1⟩ := path_reply h
    unfold CNIConfig.delNetworkList at h1
    simp only at h1
    split at h1
    · exact absurd (path_done h1).2 (by simp)
    · exact absurd (path_done h1).2 (by simp)
    · obtain ⟨k2, h2⟩ := path_bind_left (fun _ => tailDel) (by simp [Act.isExec]) h1
      obtain ⟨p, hm, hinv⟩ := path_delLoop hrt r h2
      exact ⟨_, p, none, rfl, List.mem_reverse.1 hm, hinv, fun ha => absurd rfl ha, fun _ => .inl rfl⟩
    · have hl : (c.delPrev l rt).All fun a => a.isExec = false := by
        unfold CNIConfig.delPrev
        refine looks.attempt.bind fun x => ?_
        cases x with
        | ok _ => trivial
        | error _ =>
          refine Prog.All.bind (Prog.All.attempt ?_) fun _ => trivial
          unfold CNIConfig.cacheDel
          split
          · exact ⟨rfl, fun r => by cases r <;> trivial⟩
          · trivial
      obtain ⟨tr1, tr2, prev, rfl, h2, h3⟩ := path_bind_right hl (by simp [Act.isExec]) h1
      obtain ⟨k2, h4⟩ := path_bind_left (fun _ => tailDel) (by simp [Act.isExec]) h3
      obtain ⟨p, hm, hinv⟩ := path_delLoop hrt r h4
      exact ⟨_, p, prev, rfl, List.mem_reverse.1 hm, invoked_mono hinv tail, fun ha => absurd rfl ha, fun _ => (path_delPrev hn h2).mono head⟩
  | delNetwork c n rt =>
    obtain ⟨k1, h1⟩ := path_reply h
    unfold CNIConfig.delNetwork at h1
    simp only at h1
    split at h1
    · exact absurd (path_done h1).2 (by simp)
    · exact absurd (path_done h1).2 (by simp)
    · obtain ⟨k2, h2⟩ := path_bind_left (fun _ => tailDel) (by simp [Act.isExec]) h1
      exact ⟨_, n, none, rfl, List.mem_cons_self .., path_runNetwork1 hrt h2 r, fun ha => absurd rfl ha, fun _ => .inl rfl⟩
    · obtain ⟨tr1, tr2, prev, rfl, h2, h3⟩ := path_bind_right looks.mapErr (by simp [Act.isExec]) h1
      obtain ⟨k2, h4⟩ := path_bind_left (fun _ => tailDel) (by simp [Act.isExec]) h3
      exact ⟨_, n, prev, rfl, List.mem_cons_self .., invoked_mono (path_runNetwork1 hrt h4 r) tail, fun ha => absurd rfl ha,
        fun _ => (path_getCachedResult hn (path_mapErr_done h2)).mono head⟩
  | check c l rt =>
    obtain ⟨k1, h1⟩ := path_reply h
    unfold CNIConfig.checkNetworkList at h1
    split at h1
    · exact absurd (path_done h1).2 (by simp)
    · exact absurd (path_done h1).2 (by simp)
    · exact absurd (path_done h1).2 (by simp)
    · split at h1
      · exact absurd (path_done h1).2 (by simp)
      · obtain ⟨tr1, tr2, prev, rfl, h2, h3⟩ := path_bind_right looks.mapErr (by simp [Act.isExec]) h1
        obtain ⟨p, hm, hinv⟩ := path_checkLoop hrt r h3
        exact ⟨_, p, prev, rfl, hm, invoked_mono hinv tail, fun ha => absurd rfl ha,
          fun _ => (path_getCachedResult hn (path_mapErr_done h2)).mono head⟩
  | checkNetwork c n rt =>
    obtain ⟨k1, h1⟩ := path_reply h
    unfold CNIConfig.checkNetwork at h1
    split at h1
    · exact absurd (path_done h1).2 (by simp)
    · exact absurd (path_done h1).2 (by simp)
    · exact absurd (path_done h1).2 (by simp)
    · obtain ⟨tr1, tr2, prev, rfl, h2, h3⟩ := path_bind_right looks.mapErr (by simp [Act.isExec]) h1
      exact ⟨_, n, prev, rfl, List.mem_cons_self .., invoked_mono (path_runNetwork1 hrt h3 r) tail, fun ha => absurd rfl ha,
        fun _ => (path_getCachedResult hn (path_mapErr_done h2)).mono head⟩

/-! ### what is made of the contents -/

theorem key_unmatched {names : List Bytes} {f : Bytes} {ks : List Bytes} (hk : ∀ k ∈ ks, sanitize k = k ∧ fieldMatch names k ≠ some f) :
    ∀ {ms : List (Bytes × Json)}, (∀ m ∈ ms, m.1 ∈ ks) → getField names f (Json.cleanMembers ms) = [] := by
  intro ms
  induction ms with
  | nil => intro _; rfl
  | cons m ms ih =>
    intro h
    have hm := hk _ (h m (List.mem_cons_self ..))
    rw [Json.cleanMembers, getField_cons_ne (by rw [hm.1]; exact hm.2)]
    exact ih fun x hx => h x (List.mem_cons_of_mem _ hx)

/-- Read in the legacy format, an entry of the current format is a result without anything in it. -/
theorem legacy_entry {result : Option Result} {config name : Bytes} {rt : RuntimeConf} {info : CachedInfo} (hrt : rt.OK)
    (h : cachedInfoOf result config name rt = some info) : createFromBytes info.json.print = .ok blankResult := by
  have hp := Json.parse_print_clean _ (cachedInfo_numsOK hrt h)
  obtain ⟨ms, hms, hks⟩ : ∃ ms, info.json = .obj ms ∧ ∀ m ∈ ms, m.1 ∈ [b!"kind", b!"containerId", b!"config", b!"ifName", b!"networkName",
      b!"netns", b!"cniArgs", b!"capabilityArgs", b!"result"] := by
    refine ⟨_, rfl, fun m hm => ?_⟩
    have hj : ∀ {c : Bool} {k : Bytes} {v : Json}, m ∈ jopt c k v → m.1 = k := by
      intro c k v h
      cases c with
      | false => cases h
      | true => simp only [jopt, if_true, List.mem_singleton] at h; rw [h]
    simp only [List.mem_append] at hm
    rcases hm with (((hm | hm) | hm) | hm) | hm
    · simp only [List.mem_cons, List.not_mem_nil, or_false] at hm
      rcases hm with rfl | rfl | rfl | rfl | rfl <;> simp
    all_goals (rw [hj hm]; simp)
  rw [hms, Json.clean] at hp
  have g1 : getField [b!"cniVersion"] b!"cniVersion" (Json.cleanMembers ms) = [] := key_unmatched (by decide) hks
  have g2 : getField r020Fields b!"cniVersion" (Json.cleanMembers ms) = [] := key_unmatched (by decide) hks
  have g3 : getField r020Fields b!"ip4" (Json.cleanMembers ms) = [] := key_unmatched (by decide) hks
  have g4 : getField r020Fields b!"ip6" (Json.cleanMembers ms) = [] := key_unmatched (by decide) hks
  have g5 : getField r020Fields b!"dns" (Json.cleanMembers ms) = [] := key_unmatched (by decide) hks
  have hv : decodeVersion info.json.print = .ok b!"0.1.0" := by
    unfold decodeVersion
    rw [hms, hp]
    simp only [structMembers, g1, decAll]
    rfl
  have hd : decR020 (.obj (Json.cleanMembers ms)) = some { cniVersion := [] } := by
    unfold decR020
    simp only [structMembers, Option.bind_eq_bind, Option.bind_some, g2, g3, g4, g5, decAll]
    rfl
  unfold createFromBytes
  rw [hv]
  show create b!"0.1.0" _ = _
  unfold create
  rw [hms, hp]
  simp only [createJson]
  rw [if_pos (by decide), hd]
  rfl

/-! ### all together -/

theorem inter_before {i : Nat} {a : Act} {r : a.Resp} {l2 : List (Nat × Move)} {l : List (Nat × Move)} :
    ∀ {ps ps' : List (Prog α)} {fs fs' : FS}, Inter flt ps fs (l ++ (i, .call ⟨a, r⟩) :: l2) ps' fs' →
    ∃ mid now k, Inter flt ps fs l mid now ∧ mid[i]? = some (.op a k) := by
  induction l with
  | nil =>
    intro ps ps' fs fs' h
    cases h with
    | call hi _ _ => exact ⟨ps, fs, _, .refl .., hi⟩
  | cons x l ih =>
    intro ps ps' fs fs' h
    rw [List.cons_append] at h
    cases h with
    | call hi hs h =>
      obtain ⟨mid, now, k, h1, h2⟩ := ih h
      exact ⟨mid, now, k, .call hi hs h1, h2⟩
    | part hi n h =>
      obtain ⟨mid, now, k, h1, h2⟩ := ih h
      exact ⟨mid, now, k, .part hi n h1, h2⟩

/-- All operations of the client are proper. -/
def Spec.Client.Proper : Client → Prop
  | .session ops => ∀ op ∈ ops, op.Proper
  | _ => True

/-- `content` is what one of the ADDs on file `q` would store. Proof device: models no code. -/
def Entered (clients : List Client) (l : List (Nat × Move)) (q content : Bytes) : Prop :=
  ∃ (op : ApiOp) (r : Option Result) (conf : Bytes) (info : CachedInfo), op.Proper ∧ cachedInfoOf r conf op.name op.rt = some info ∧
    content = info.json.print ∧ op.key = q ∧ op.added = some conf ∧ ∀ fs, AddedAs clients l op r (FS.set fs q (some content))

/-- What a client writes is what one of its ADDs stores. -/
theorem entered_of_path {clients : List Client} (hp : ∀ cl ∈ clients, cl.Proper) {q c : Bytes} {l : List (Nat × Move)} {j : Nat} {cl : Client}
    (hc : clients[j]? = some cl) {tr : Trace} {k : Bool → Prog Ended} (hpath : Path cl.run tr (.op (.writeFile q c) k)) (hpre : tr <+: callsBy j l) :
    Entered clients l q c := by
  have never : ∀ {P : Act → Prop}, cl.run.All P → ¬ P (.writeFile q c) → Entered clients l q c := fun h1 h2 => absurd (hpath.act h1) h2
  cases cl with
  | gc c list valid =>
    refine never (P := fun a => a.writes = none ∨ ∃ p, a = .remove p) (Client.run_of_prog ((gcNetworkList_acts.mono fun a ha => ?_).attempt.bind
      fun _ => trivial)) (by rintro (h | ⟨p, h⟩) <;> cases h)
    rcases ha with ha | ⟨x, -, p, -, rfl⟩
    · exact .inl ha
    · exact .inr ⟨p, rfl⟩
  | listing c cid =>
    exact never (P := fun a => a.writes = none) (Client.run_of_prog ((getCachedAttachments_looks.mono fun a ha => ha.1).attempt.bind
      fun _ => trivial)) (by intro h; cases h)
  | session ops =>
    obtain ⟨op, ho, pre, tr', k', rfl, hpo⟩ := path_run hpath
    have hop := hp _ (List.mem_of_getElem? hc) op ho
    obtain ⟨r, conf, info, ha, rfl, hi, rfl, hr⟩ := path_write hop hpo
    obtain ⟨after, hafter⟩ := hpre
    refine ⟨op, r, conf, info, hop, hi, rfl, rfl, ha, fun fs => ?_⟩
    exact ⟨j, ops, pre, tr', after, info.json.print, fs, hc, ho, by rw [ha]; simp, hafter.symm, hr fs, FS.set_same ..⟩

theorem reads_visible {clients : List Client} (hp : ∀ cl ∈ clients, cl.Proper) {q : Bytes} {fs fs' : FS} {l : List (Nat × Move)}
    {ps' : List (Prog Ended)} (h : Inter flt (clients.map Client.run) fs l ps' fs') (h0 : fs q = none) :
    ∀ (i : Nat) b, (i, Move.call ⟨.readFile q, some b⟩) ∈ l → Visible (Entered clients l q) (Unfinished flt l) b := by
  refine (inter_visible (q := q) (K := Entered clients l q) (W := Unfinished flt l) .inl h (fun x hx n hn => .inr ⟨x, hx, n, hn⟩)
    (fun b hb => by rw [h0] at hb; cases hb) ?_).2
  intro j p tr c k hj hpath hpre
  obtain ⟨cl, hc, hm, rfl⟩ := run_get hj
  exact entered_of_path hp hc hpath hpre

theorem loadResult_blank {result : Option Result} {config name ver : Bytes} {rt : RuntimeConf} {info : CachedInfo} {prev : Option Result}
    (hrt : rt.OK) (h : cachedInfoOf result config name rt = some info) (hl : loadResult info.json.print ver = .ok prev) :
    ∃ x, prev = some x ∧ blankResult.getAsVersion ver = .ok x := by
  unfold loadResult at hl
  rw [legacy_entry hrt h] at hl
  cases hg : blankResult.getAsVersion ver with
  | ok x =>
    refine ⟨x, ?_, rfl⟩
    simp only [bind, Out.bind, hg, Out.wrapErr] at hl
    cases hl; rfl
  | err e => simp only [bind, Out.bind, hg, Out.wrapErr] at hl; cases hl
  | panic => simp only [bind, Out.bind, hg, Out.wrapErr] at hl; cases hl

theorem loadResult_bad {b ver : Bytes} {prev : Option Result} (h : Json.parse b = none) : loadResult b ver ≠ .ok prev := by
  unfold loadResult createFromBytes decodeVersion
  rw [h]
  intro h; cases h

/-- What an operation makes of what it reads. -/
theorem readings_found {clients : List Client} {l : List (Nat × Move)} {op : ApiOp} (hn : PlainNames op.name op.rt) {tr : Trace} {prev : Option Result}
    (hv : ∀ b, (⟨.readFile op.key, some b⟩ : Event) ∈ tr → Visible (Entered clients l op.key) (Unfinished flt l) b)
    (h : Readings op.key op.version tr prev) : Found flt clients l op prev := by
  rcases h with rfl | ⟨b1, h1, h⟩
  · exact .nothing
  · obtain ⟨c1, ⟨op1, r1, conf1, info1, hp1, hi1, rfl, hk1, -, ha1⟩, hb1⟩ := hv b1 h1
    have hcf := currentFormat_entry hp1.ok hi1 fun kv hkv => (hp1.caps kv hkv).2
    rcases hb1 with rfl | ⟨hW, ht⟩
    · rcases h with ⟨info, hc, hl⟩ | ⟨hc, -⟩
      · obtain ⟨x, rfl⟩ : ∃ x, prev = some x := by
          unfold loadResult at hl
          obtain ⟨r, -, hl⟩ := Out.bind_eq_ok hl
          obtain ⟨r', -, hl⟩ := Out.bind_eq_ok hl
          exact ⟨r', by cases hl; rfl⟩
        refine .stored (tr := [⟨.readFile op.key, some info1.json.print⟩]) ⟨op1, hk1, ha1 fun _ => none⟩ ?_
        have run : ∀ {c : CNIConfig} {name ver : Bytes} {rt : RuntimeConf} {fs : FS}, PlainNames name rt →
            fs (entryPath c name rt) = some info1.json.print → loadResult (mapJson info.rawResult).print ver = .ok (some x) →
            Runs false (c.getCachedResult name ver rt) fs [⟨.readFile (entryPath c name rt), some info1.json.print⟩] fs (.ok (some x)) := by
          intro c name ver rt fs hn hf hl
          unfold CNIConfig.getCachedResult
          rw [cachePath_eq hn]
          have hs := Step.readFile (flt := false) fs (entryPath c name rt)
          rw [hf] at hs
          refine .op hs ?_
          simp only [hc]
          rw [hl]
          exact .done ..
        cases op <;> exact run hn (FS.set_same ..) hl
      · obtain ⟨ci, hci, -⟩ := hcf
        rw [hci] at hc; cases hc
    · have hbad : currentFormat b1 = none := by
        unfold currentFormat
        rw [readCachedInfo_bad (cachedInfo_torn hp1.ok hi1 ht)]
      rcases h with ⟨info, hc, -⟩ | ⟨-, b2, h2, hl⟩
      · rw [hbad] at hc; cases hc
      · obtain ⟨c2, ⟨op2, r2, conf2, info2, hp2, hi2, rfl, -, -, -⟩, hb2⟩ := hv b2 h2
        rcases hb2 with rfl | ⟨-, ht2⟩
        · obtain ⟨x, rfl, hx⟩ := loadResult_blank hp2.ok hi2 hl
          exact .blank hW hx
        · exact absurd hl (loadResult_bad (cachedInfo_torn hp2.ok hi2 ht2))

theorem mem_callsBy {i : Nat} {e : Event} {l : List (Nat × Move)} (h : e ∈ callsBy i l) : (i, .call e) ∈ l := by
  unfold callsBy at h
  obtain ⟨⟨j, m⟩, hm, he⟩ := List.mem_filterMap.1 h
  obtain ⟨hm1, hj⟩ := List.mem_filter.1 hm
  simp only [decide_eq_true_eq] at hj
  subst hj
  cases m with
  | call e' => simp only [Move.event?, Option.some.injEq] at he; subst he; exact hm1
  | part n => cases he

/-- Clients use the API concurrently, on whatever attachments, also on the same ones, with any behaviour of the plugins; files may
fail and writes may be seen before they are finished. Every execution of a plugin by one of the sessions is of a plugin of one of its
operations, found on its path, with the arguments of its attachment. An ADD passes on what plugins executed before by the same client
returned; CHECK and DEL pass on nothing, or exactly what one ADD of the same attachment stored before, or, but only if a write has been
seen unfinished, the blank result. -/
theorem c70_prev (clients : List Client) (hp : ∀ cl ∈ clients, cl.Proper) (fs fs' : FS) (h0 : ∀ q, fs q = none)
    (l l2 : List (Nat × Move)) (ps' : List (Prog Ended)) (i : Nat) (ops : List ApiOp) (hi : clients[i]? = some (.session ops))
    (path stdin : Bytes) (args : PArgs) (resp : Except GoErr Bytes)
    (h : Inter flt (clients.map Client.run) fs (l ++ (i, .call ⟨.exec path stdin args, resp⟩) :: l2) ps' fs') :
    ∃ op ∈ ops, ∃ verb p prev, op.verb = some verb ∧ p ∈ op.plugins ∧
      Invoked op.cfg verb op.name op.version op.rt p prev (callsBy i l) ⟨path, stdin, args, resp⟩ ∧
      (op.added ≠ none → prev = none ∨ ∃ e ∈ (callsBy i l).execs, ∃ x, Returned e x ∧ prev = some x) ∧
      (op.added = none → Found flt clients l op prev) := by
  obtain ⟨mid, now, k, h1, hk⟩ := inter_before h
  have hrun : (clients.map Client.run)[i]? = some (Client.session ops).run := by rw [List.getElem?_map, hi]; rfl
  obtain ⟨p', hp', hpath⟩ := inter_path h1 i hrun
  rw [hk] at hp'
  cases hp'
  obtain ⟨op, ho, pre, tr, k', htr, hpo⟩ := path_run hpath
  have hop := hp _ (List.mem_of_getElem? hi) op ho
  obtain ⟨verb, p, prev, hverb, hmem, hinv, hadd, hread⟩ := path_exec hop.ok hop.names hpo resp
  have sub : ∀ e ∈ tr, e ∈ callsBy i l := fun e he => by rw [htr]; exact List.mem_append.2 (.inr he)
  refine ⟨op, ho, verb, p, prev, hverb, hmem, invoked_mono hinv sub, fun ha => (hadd ha).imp id ?_, fun ha => ?_⟩
  · rintro ⟨e, he, x, hx, rfl⟩
    exact ⟨e, by rw [htr, execs_append]; exact List.mem_append.2 (.inr he), x, hx, rfl⟩
  · exact readings_found hop.names (fun b hb => reads_visible hp h1 (h0 _) i b (mem_callsBy (sub _ hb))) (hread ha)

/-- If files do not fail and no write is seen unfinished then what CHECK and DEL find is nothing or what an ADD of the same attachment
stored: if that ADD returned a result that the format of its version represents, they find this result, converted to the version of
their configuration. -/
theorem c70_faithful (clients : List Client) (hp : ∀ cl ∈ clients, cl.Proper) (l : List (Nat × Move)) (op : ApiOp) (hop : op.Proper)
    (hu : ¬ Unfinished flt l) (x : Result) (h : Found flt clients l op (some x)) :
    ∃ r left, AddedIn clients l op.key r left ∧ ∀ y, r = some y → Representable true y → y.getAsVersion op.version = .ok x := by
  cases h with
  | blank h => exact absurd h hu
  | @stored r left _ tr ha hr =>
    refine ⟨r, left, ha, ?_⟩
    rintro y rfl hrep
    obtain ⟨op', hk, j, ops, before, tr', after, content, fs0, hj, ho, had, -, hruns, hleft⟩ := ha
    have hop' : op'.Proper := hp _ (List.mem_of_getElem? hj) op' ho
    have key : ∃ info conf, WellTyped y ∧ cachedInfoOf (some y) conf op'.name op'.rt = some info ∧ left op'.key = some info.json.print := by
      cases op' with
      | add c list rt =>
        obtain ⟨o1, h1, ho1, hno⟩ := runs_reply hruns
        cases o1 with
        | ok r' =>
          have he := ho1 _ rfl
          cases he
          obtain ⟨hw, -, info, hi, rfl⟩ := addNetworkList_stored hop'.ok h1
          exact ⟨info, _, hw, hi, FS.set_same ..⟩
        | err e => exact absurd rfl (hno (by simp) _)
        | panic => exact absurd rfl (hno (by simp) _)
      | addNetwork c n rt =>
        obtain ⟨o1, h1, ho1, hno⟩ := runs_reply hruns
        cases o1 with
        | ok r' =>
          have he := ho1 _ rfl
          cases he
          obtain ⟨hw, -, info, hi, rfl⟩ := addNetwork_stored hop'.ok h1
          exact ⟨info, _, hw, hi, FS.set_same ..⟩
        | err e => exact absurd rfl (hno (by simp) _)
        | panic => exact absurd rfl (hno (by simp) _)
      | _ => exact absurd rfl had
    obtain ⟨info, conf, hw, hi, hl⟩ := key
    rw [hk] at hl
    have := cachedResultOf_entry (ver := op.version) hop'.ok hw hrep hi fun kv hkv => (hop'.caps kv hkv).2
    have hres : ∀ {c : CNIConfig} {name ver : Bytes} {rt : RuntimeConf}, PlainNames name rt →
        Runs false (c.getCachedResult name ver rt) left tr left (.ok (some x)) → .ok (some x) = cachedResultOf ver (left (entryPath c name rt)) :=
      fun hn h => (runs_getCachedResult h).2.2.1 rfl _ (cachePath_eq hn)
    have hgot : .ok (some x) = cachedResultOf op.version (left op.key) := by
      have hn := hop.names
      cases op <;> exact hres hn hr
    rw [hl, this] at hgot
    cases hg : y.getAsVersion op.version with
    | ok x' => rw [hg] at hgot; cases hgot; rfl
    | err e => rw [hg] at hgot; cases hgot
    | panic => rw [hg] at hgot; cases hgot

theorem path_session_done {ops : List ApiOp} : ∀ {tr : Trace} {rs : List (Except GoErr Reply)}, Path (session ops) tr (.done (.ok rs)) →
    ∀ (n : Nat) (x : Reply), rs[n]? = some (.ok x) → ∃ op, ops[n]? = some op ∧ ∃ tr', (∀ e ∈ tr', e ∈ tr) ∧ Path op.call tr' (.done (.ok x)) := by
  induction ops with
  | nil =>
    intro tr rs h n x hx
    have := (path_done h).2
    cases this
    cases hx
  | cons op ops ih =>
    intro tr rs h n x hx
    obtain ⟨tr1, tr2, y, rfl, h1, h2⟩ := path_bind_done h
    obtain ⟨tr3, tr4, ys, rfl, h3, h4⟩ := path_bind_done h2
    have := (path_done h4).2
    cases this
    cases n with
    | zero =>
      cases hx
      obtain ⟨o1, h5, he⟩ := path_attempt_done h1
      cases o1 with
      | ok z => cases he; exact ⟨op, rfl, tr1, fun e he => List.mem_append.2 (.inl he), h5⟩
      | err e => cases he
      | panic => cases he
    | succ n =>
      obtain ⟨op', ho, tr', hs, hp⟩ := ih h3 n x hx
      exact ⟨op', ho, tr', fun e he => List.mem_append.2 (.inr (List.mem_append.2 (.inl (hs e he)))), hp⟩

/-- The same for the cached result that is asked for directly: in the end, for every such call of a session that succeeded, it has
returned nothing, or exactly what one ADD of the same attachment stored, or, but only if a write has been seen unfinished, the blank
result. -/
theorem c70_cached (clients : List Client) (hp : ∀ cl ∈ clients, cl.Proper) (fs fs' : FS) (h0 : ∀ q, fs q = none)
    (l : List (Nat × Move)) (ps' : List (Prog Ended)) (i : Nat) (ops : List ApiOp) (hi : clients[i]? = some (.session ops))
    (h : Inter flt (clients.map Client.run) fs l ps' fs') (rs : List (Except GoErr Reply)) (hd : ps'[i]? = some (.done (.ok (.session rs))))
    (n : Nat) (c : CNIConfig) (list : NetConfList) (rt : RuntimeConf) (hop : ops[n]? = some (.cachedResult c list rt))
    (prev : Option Result) (hr : rs[n]? = some (.ok (.result prev))) : Found flt clients l (.cachedResult c list rt) prev := by
  have hrun : (clients.map Client.run)[i]? = some (Client.session ops).run := by rw [List.getElem?_map, hi]; rfl
  obtain ⟨p', hp', hpath⟩ := inter_path h i hrun
  rw [hd] at hp'
  cases hp'
  obtain ⟨tr1, tr2, ys, htr, h1, h2⟩ := path_bind_done hpath
  have := (path_done h2).2
  cases this
  obtain ⟨op, ho, tr, hs, hcall⟩ := path_session_done h1 n _ hr
  rw [hop] at ho
  cases ho
  have hproper := hp _ (List.mem_of_getElem? hi) _ (List.mem_of_getElem? hop)
  obtain ⟨tr3, tr4, y, rfl, h3, h4⟩ := path_bind_done hcall
  have := (path_done h4).2
  cases this
  have hread := path_getCachedResult hproper.names h3
  exact readings_found hproper.names (fun b hb => reads_visible hp h (h0 _) i b
    (mem_callsBy (by rw [htr]; exact List.mem_append.2 (.inl (hs _ (List.mem_append.2 (.inl hb))))))) hread

namespace Example

/-- An ADD, and a CHECK of the same attachment. Test data; models no code. -/
def rivals : List Client := [.session [.add cfg list rt], .session [.check cfg list rt]]

theorem rivals_proper : ∀ cl ∈ rivals, cl.Proper := by
  have hn : PlainNames list.name rt := ⟨by decide +kernel, by decide +kernel, by decide +kernel⟩
  simp only [rivals, List.mem_cons, List.not_mem_nil, or_false]
  rintro cl (rfl | rfl)
  · simp only [Client.Proper, List.mem_cons, List.not_mem_nil, or_false]
    rintro op rfl
    exact ⟨hn, (by intro kv h; cases h), rt_ok.sorted⟩
  · simp only [Client.Proper, List.mem_cons, List.not_mem_nil, or_false]
    rintro op rfl
    exact ⟨hn, (by intro kv h; cases h), rt_ok.sorted⟩

/-- What was executed. Observation in tests; models no code. -/
def executed (i : Nat) (l : List (Nat × Move)) : List (Bytes × Bytes) := (callsBy i l).execs.map fun e => (e.path, e.stdin)

theorem rivals_run {sch : List (Nat × Option Nat)} {b : List (Bytes × Bytes)}
    (h : (Prog.interInterp find good sch (rivals.map Client.run) noFiles).map (fun x => executed 1 x.1) = some b) :
    ∃ l ps' fs', Inter false (rivals.map Client.run) noFiles l ps' fs' ∧ executed 1 l = b := by
  obtain ⟨x, hx, rfl⟩ := Option.map_eq_some_iff.1 h
  exact ⟨_, _, _, Prog.interInterp_inter hx, rfl⟩

/-- The CHECK begins before the ADD has stored anything: nothing is passed on. -/
example : ∃ l ps' fs', Inter false (rivals.map Client.run) noFiles l ps' fs' ∧
    executed 1 l = [(b!"/bin/a", b!"{\"cniVersion\":\"1.0.0\",\"name\":\"net\",\"type\":\"a\",\"x\":1}")] :=
  rivals_run (sch := [(0, none), (0, none), (1, none), (0, none), (0, none), (0, none), (0, none), (1, none), (1, none)]) (by decide +kernel)

/-- The CHECK reads the file after the ADD has written it: the result is passed on. -/
example : ∃ l ps' fs', Inter false (rivals.map Client.run) noFiles l ps' fs' ∧
    executed 1 l = [(b!"/bin/a", b!"{\"cniVersion\":\"1.0.0\",\"name\":\"net\",\"prevResult\":{\"cniVersion\":\"1.0.0\",\"dns\":{\"domain\":\"d\"}},\"type\":\"a\",\"x\":1}")] :=
  rivals_run (sch := [(0, none), (0, none), (0, none), (0, none), (0, none), (0, none), (1, none), (1, none), (1, none)]) (by decide +kernel)

/-- The blank result is not only a possibility of the theorem: a CHECK that reads the file of the attachment for the first time
when the ADD has created but not yet filled it, and for the second time when the ADD has filled it, hands to the plugin a previous
result without any content, although the ADD stored one with content. -/
theorem _root_.Verif.c70_blank : ∃ l ps' fs', Inter false (rivals.map Client.run) noFiles l ps' fs' ∧
    executed 1 l = [(b!"/bin/a", b!"{\"cniVersion\":\"1.0.0\",\"name\":\"net\",\"prevResult\":{\"cniVersion\":\"1.0.0\"},\"type\":\"a\",\"x\":1}")] :=
  rivals_run (sch := [(0, none), (0, none), (0, none), (0, none), (0, none), (0, some 0), (1, none), (0, none), (1, none), (1, none), (1, none)])
    (by decide +kernel)

end Example

end Verif
