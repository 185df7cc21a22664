/- What is in the cache after clients have used the same attachments concurrently. -/
import Verif.Spec.Settled
import Verif.Props.Provenance

namespace Verif
open Spec

variable {α β : Type} {flt : Bool}

/-- What is left in the file by a list of steps. Proof device: models no code. -/
def lastLeft (q : Bytes) : List (Nat × Move) → Option Bytes → Option Bytes
  | [], v => v
  | (_, .call e) :: l, v => lastLeft q l ((leaves q e).getD v)
  | (_, .part _) :: l, v => lastLeft q l v

theorem lastLeft_spec {q : Bytes} : ∀ (l : List (Nat × Move)) (v : Option Bytes),
    (Untouched q l ∧ lastLeft q l v = v) ∨ ∃ l1 j, LastChange q l l1 j (lastLeft q l v) := by
  intro l
  induction l with
  | nil => intro v; exact .inl ⟨(by intro i e h; cases h), rfl⟩
  | cons x l ih =>
    intro v
    obtain ⟨i, m⟩ := x
    cases m with
    | part n =>
      rcases ih v with ⟨h1, h2⟩ | ⟨l1, j, e, l2, rfl, h1, h2⟩
      · refine .inl ⟨fun i' e he => ?_, h2⟩
        rcases List.mem_cons.1 he with he | he
        · cases he
        · exact h1 i' e he
      · exact .inr ⟨(i, .part n) :: l1, j, e, l2, rfl, h1, h2⟩
    | call e =>
      cases hl : leaves q e with
      | none =>
        have hv : lastLeft q ((i, .call e) :: l) v = lastLeft q l v := by simp [lastLeft, hl]
        rw [hv]
        rcases ih v with ⟨h1, h2⟩ | ⟨l1, j, e', l2, he, h1, h2⟩
        · refine .inl ⟨fun i' e' he => ?_, h2⟩
          rcases List.mem_cons.1 he with he | he
          · cases he; exact hl
          · exact h1 i' e' he
        · exact .inr ⟨(i, .call e) :: l1, j, e', l2, by rw [he]; rfl, h1, h2⟩
      | some w =>
        have hv : lastLeft q ((i, .call e) :: l) v = lastLeft q l w := by simp [lastLeft, hl]
        rw [hv]
        rcases ih w with ⟨h1, h2⟩ | ⟨l1, j, e', l2, he, h1, h2⟩
        · exact .inr ⟨[], i, e, l, rfl, by rw [h2]; exact hl, h1⟩
        · exact .inr ⟨(i, .call e) :: l1, j, e', l2, by rw [he]; rfl, h1, h2⟩

/-- Program `j` is about to write the file, of which it may have written the first bytes. Proof device: models no code. -/
def Writing (ps : List (Prog α)) (q : Bytes) (b : Option Bytes) : Prop :=
  ∃ (j : Nat) (content : Bytes) (k : Bool → Prog α) (n : Nat), ps[j]? = some (.op (.writeFile q content) k) ∧ b = some (content.take n)

theorem step_leaves {q : Bytes} {fs fs1 : FS} {a : Act} {r : a.Resp} (hs : Step false fs a r fs1) :
    (leaves q ⟨a, r⟩ = none ∧ fs1 q = fs q ∧ ∀ c, a ≠ .writeFile q c) ∨ leaves q ⟨a, r⟩ = some (fs1 q) := by
  cases hs with
  | writeFile p c =>
    by_cases hp : p = q
    · subst hp; exact .inr (by simp [leaves, FS.set_same])
    · exact .inl ⟨by simp [leaves, hp], FS.set_other _ _ (Ne.symm hp), by intro c' h; cases h; exact hp rfl⟩
  | remove p h =>
    by_cases hp : p = q
    · subst hp; exact .inr (by simp [leaves, FS.set_same])
    · exact .inl ⟨by simp [leaves, hp], FS.set_other _ _ (Ne.symm hp), by intro c' h; cases h⟩
  | removeMissing p h => exact .inl ⟨by simp [leaves], rfl, by intro c' h; cases h⟩
  | _ => first | contradiction | exact .inl ⟨rfl, rfl, by intro c' h; cases h⟩

/-- At any moment a file has what the last completed change left, or the first bytes of what is being written. -/
theorem inter_last {q : Bytes} {ps ps' : List (Prog α)} {fs fs' : FS} {l : List (Nat × Move)} (h : Inter false ps fs l ps' fs') :
    ∀ v, (fs q = v ∨ Writing ps q (fs q)) → fs' q = lastLeft q l v ∨ Writing ps' q (fs' q) := by
  induction h with
  | refl ps fs => intro v h; exact h
  | @call ps ps' j a k fs fs1 fs' r l hi hs h ih =>
    intro v hv
    refine ih _ ?_
    rcases step_leaves (q := q) hs with ⟨h1, h2, h3⟩ | h1
    · rw [h1, h2]
      refine hv.imp id ?_
      rintro ⟨i, c, k', n, hi', hb⟩
      refine ⟨i, c, k', n, ?_, hb⟩
      rw [set_getElem? _ _ _ _ hi]
      by_cases hij : j = i
      · subst hij
        rw [hi] at hi'
        cases hi'
        exact absurd rfl (h3 c)
      · rw [if_neg hij]; exact hi'
    · rw [h1]; exact .inl rfl
  | @part ps ps' j w c k fs fs' l hi n h ih =>
    intro v hv
    refine ih v ?_
    by_cases hw : w = q
    · subst hw
      exact .inr ⟨j, c, k, n, hi, FS.set_same ..⟩
    · rw [FS.set_other _ _ (Ne.symm hw)]; exact hv

/-! ### replies -/

theorem path_det {p p' : Prog α} {o : Out α} {rest : Trace} : ∀ {tr : Trace}, Path p tr (.done o) → Path p (tr ++ rest) p' → rest = [] := by
  induction p with
  | done o' =>
    intro tr h h'
    obtain ⟨rfl, -⟩ := path_done h
    exact (path_done h').1
  | op a k ih =>
    intro tr h h'
    cases h with
    | step h =>
      cases h' with
      | step h' => exact ih _ h h'

theorem path_split {p p' : Prog α} {tr2 : Trace} : ∀ {tr1 : Trace}, Path p (tr1 ++ tr2) p' → ∃ mid, Path p tr1 mid ∧ Path mid tr2 p' := by
  intro tr1
  induction tr1 generalizing p with
  | nil => intro h; exact ⟨p, .refl _, h⟩
  | cons e tr1 ih =>
    intro h
    cases h with
    | step h =>
      obtain ⟨mid, h1, h2⟩ := ih h
      exact ⟨mid, .step h1, h2⟩

theorem path_next {p' : Prog α} {a : Act} {r : a.Resp} {p : Prog α} {tr1 tr2 : Trace} (h : Path p (tr1 ++ ⟨a, r⟩ :: tr2) p') :
    ∃ k : a.Resp → Prog α, Path p tr1 (.op a k) := by
  obtain ⟨mid, h1, h2⟩ := path_split h
  cases h2 with
  | step h2 => exact ⟨_, h1⟩

theorem runs_path {p : Prog α} {fs fs' : FS} {tr : Trace} {o : Out α} (h : Runs flt p fs tr fs' o) : Path p tr (.done o) := by
  induction h with
  | done => exact .refl _
  | op _ _ ih => exact .step ih

/-- A call made during a session was made during one of its operations. -/
theorem path_session_at {ops : List ApiOp} {e : Event} : ∀ {tr1 tr2 : Trace} {rs : List (Except GoErr Reply)},
    Path (session ops) (tr1 ++ e :: tr2) (.done (.ok rs)) →
    ∃ (n : Nat) (op : ApiOp) (pre tr post1 post2 : Trace) (o : Out Reply), ops[n]? = some op ∧ tr1 = pre ++ tr ∧ tr2 = post1 ++ post2 ∧
      Path op.call (tr ++ e :: post1) (.done o) ∧ ∀ x, o = .ok x → rs[n]? = some (.ok x) := by
  induction ops with
  | nil => intro tr1 tr2 rs h; have := (path_done h).1; simp at this
  | cons op ops ih =>
    intro tr1 tr2 rs h
    obtain ⟨ta, tb, y, hab, h1, h2⟩ := path_bind_done h
    obtain ⟨tc, td, ys, rfl, h3, h4⟩ := path_bind_done h2
    obtain ⟨rfl, he⟩ := path_done h4
    cases he
    rw [List.append_nil] at hab
    obtain ⟨o, h5, ho⟩ := path_attempt_done h1
    rcases List.append_eq_append_iff.1 hab with ⟨as, rfl, has⟩ | ⟨bs, rfl, hbs⟩
    · -- tr1 ends inside the first operation
      cases as with
      | nil =>
        obtain ⟨n, op', pre, tr, post1, post2, o', hn, h6, h7, h8, h9⟩ := ih (tr1 := []) (tr2 := tr2) (by have ht : tc = e :: tr2 := has.symm; rw [ht] at h3; exact h3)
        exact ⟨n + 1, op', tr1 ++ pre, tr, post1, post2, o', hn, by rw [List.append_assoc, ← h6, List.append_nil], h7, h8, h9⟩
      | cons e' as =>
        cases has
        refine ⟨0, op, [], tr1, as, tc, o, rfl, rfl, rfl, h5, ?_⟩
        rintro x rfl
        cases ho
        rfl
    · obtain ⟨n, op', pre, tr, post1, post2, o', hn, rfl, h7, h8, h9⟩ := ih (tr1 := bs) (tr2 := tr2) (by rw [← hbs]; exact h3)
      exact ⟨n + 1, op', ta ++ pre, tr, post1, post2, o', hn, by rw [List.append_assoc], h7, h8, h9⟩

theorem path_run_done {ops : List ApiOp} {tr : Trace} {x : Ended} (h : Path (Client.session ops).run tr (.done (.ok x))) :
    ∃ rs, x = .session rs ∧ Path (session ops) tr (.done (.ok rs)) := by
  obtain ⟨ta, tb, rs, rfl, h1, h2⟩ := path_bind_done h
  obtain ⟨rfl, he⟩ := path_done h2
  cases he
  exact ⟨rs, rfl, by rw [List.append_nil]; exact h1⟩

theorem callsBy_append {i : Nat} {l1 l2 : List (Nat × Move)} : callsBy i (l1 ++ l2) = callsBy i l1 ++ callsBy i l2 := by
  simp [callsBy]

theorem callsBy_cons {i : Nat} {e : Event} {l : List (Nat × Move)} : callsBy i ((i, .call e) :: l) = e :: callsBy i l := by
  simp [callsBy, Move.event?]

theorem leaves_eq {q : Bytes} {e : Event} {v : Option Bytes} (h : leaves q e = some v) :
    (∃ c, v = some c ∧ e = ⟨.writeFile q c, true⟩) ∨ (v = none ∧ e = ⟨.remove q, true⟩) := by
  obtain ⟨a, r⟩ := e
  cases a with
  | writeFile p c =>
    simp only [leaves] at h
    split at h
    · rename_i hc; obtain ⟨rfl, rfl⟩ := hc; cases h; exact .inl ⟨c, rfl, rfl⟩
    · cases h
  | remove p =>
    simp only [leaves] at h
    split at h
    · rename_i hc; obtain ⟨rfl, rfl⟩ := hc; cases h; exact .inr ⟨rfl, rfl⟩
    · cases h
  | _ => cases h

theorem cacheAdd_removes {c : CNIConfig} {result : Option Result} {config name : Bytes} {rt : RuntimeConf} :
    (c.cacheAdd result config name rt).All fun a => ∀ q, a ≠ .remove q := by
  unfold CNIConfig.cacheAdd
  cases cachedInfoOf result config name rt with
  | none => trivial
  | some info =>
    simp only
    cases c.cachePath name rt with
    | err e => trivial
    | panic => trivial
    | ok p =>
      refine ⟨(by intro q h; cases h), fun r => ?_⟩
      cases r with
      | false => trivial
      | true =>
        refine ⟨(by intro q h; cases h), fun r => ?_⟩
        cases r <;> trivial

/-- Only a DEL removes a file, that of its attachment. -/
theorem path_remove {op : ApiOp} (hp : op.Proper) {tr : Trace} {q : Bytes} {k : (Act.remove q).Resp → Prog Reply}
    (h : Path op.call tr (.op (.remove q) k)) : op.isDel = true ∧ op.key = q := by
  have hk : op.key = q := by
    have := h.act (ApiOp.call_only hp.names)
    simpa [Act.Only, eq_comm] using this
  have plug : ∀ {a : Act}, a.Plugins → ∀ q, a ≠ .remove q := by rintro _ h q rfl; exact h
  have look : ∀ {o : Out Bytes} {a : Act}, (a.Plugins ∨ ∃ p, o = .ok p ∧ a = .readFile p) → ∀ q, a ≠ .remove q := by
    rintro o a (h | ⟨p, -, rfl⟩) q
    · exact plug h q
    · intro h; cases h
  refine ⟨?_, hk⟩
  cases op with
  | del => rfl
  | delNetwork => rfl
  | add c l rt =>
    obtain ⟨k1, h1⟩ := path_reply h
    unfold CNIConfig.addNetworkList at h1
    simp only [prog_bind_eq] at h1
    refine absurd rfl (h1.act (P := fun a => ∀ q, a ≠ .remove q) ((addLoop_plugins.mono fun a h => plug h).bind fun r =>
      Prog.All.bind cacheAdd_removes.mapErr fun _ => trivial) q)
  | addNetwork c n rt =>
    obtain ⟨k1, h1⟩ := path_reply h
    unfold CNIConfig.addNetwork at h1
    simp only [prog_bind_eq] at h1
    refine absurd rfl (h1.act (P := fun a => ∀ q, a ≠ .remove q) ((addNetwork1_plugins.mono fun a h => plug h).bind fun r =>
      Prog.All.bind cacheAdd_removes.mapErr fun _ => trivial) q)
  | check c l rt => obtain ⟨k1, h1⟩ := path_reply h; exact absurd rfl (h1.act (checkNetworkList_acts.mono fun a h => look h) q)
  | checkNetwork c l rt => obtain ⟨k1, h1⟩ := path_reply h; exact absurd rfl (h1.act (checkNetwork_acts.mono fun a h => look h) q)
  | cachedResult c l rt => obtain ⟨k1, h1⟩ := path_reply h; obtain ⟨q, hq, -⟩ := h1.act getCachedResult_looks; cases hq
  | cachedConfig c l rt => obtain ⟨k1, h1⟩ := path_reply h; obtain ⟨q, hq, -⟩ := h1.act getCachedConfig_looks; cases hq

/-- An ADD that succeeded has written the file. -/
theorem path_cacheAdd_done {c : CNIConfig} {result : Option Result} {config name : Bytes} {rt : RuntimeConf} {tr : Trace}
    (h : Path (c.cacheAdd result config name rt) tr (.done (.ok ()))) :
    ∃ p content, c.cachePath name rt = .ok p ∧ (⟨.writeFile p content, true⟩ : Event) ∈ tr := by
  unfold CNIConfig.cacheAdd at h
  cases hi : cachedInfoOf result config name rt with
  | none => rw [hi] at h; exact absurd (path_done h).2 (by simp)
  | some info =>
    rw [hi] at h
    simp only at h
    cases hc : c.cachePath name rt with
    | err e => rw [hc] at h; exact absurd (path_done h).2 (by simp)
    | panic => rw [hc] at h; exact absurd (path_done h).2 (by simp)
    | ok q =>
      rw [hc] at h
      simp only at h
      cases h with
      | @step _ _ r tr p' h =>
        cases r with
        | false => exact absurd (path_done h).2 (by simp)
        | true =>
          cases h with
          | @step _ _ r tr p' h =>
            cases r with
            | false => exact absurd (path_done h).2 (by simp)
            | true => exact ⟨q, info.json.print, rfl, List.mem_cons_of_mem _ (List.mem_cons_self ..)⟩

theorem path_added {op : ApiOp} (hp : op.Proper) (ha : op.added ≠ none) {tr : Trace} {x : Reply} (h : Path op.call tr (.done (.ok x))) :
    ∃ content, (⟨.writeFile op.key content, true⟩ : Event) ∈ tr := by
  have hn := hp.names
  cases op with
  | add c l rt =>
    obtain ⟨tr1, tr2, y, rfl, h1, -⟩ := path_bind_done h
    unfold CNIConfig.addNetworkList at h1
    simp only [prog_bind_eq] at h1
    obtain ⟨tr3, tr4, z, rfl, -, h2⟩ := path_bind_done h1
    obtain ⟨tr5, tr6, w, rfl, h3, -⟩ := path_bind_done h2
    obtain ⟨p, content, hc, hm⟩ := path_cacheAdd_done (path_mapErr_done h3)
    have hn' : PlainNames l.name rt := hn
    rw [cachePath_eq hn'] at hc
    cases hc
    exact ⟨content, by simp [hm, ApiOp.key, ApiOp.cfg, ApiOp.name, ApiOp.rt]⟩
  | addNetwork c n rt =>
    obtain ⟨tr1, tr2, y, rfl, h1, -⟩ := path_bind_done h
    unfold CNIConfig.addNetwork at h1
    simp only [prog_bind_eq] at h1
    obtain ⟨tr3, tr4, z, rfl, -, h2⟩ := path_bind_done h1
    obtain ⟨tr5, tr6, w, rfl, h3, -⟩ := path_bind_done h2
    obtain ⟨p, content, hc, hm⟩ := path_cacheAdd_done (path_mapErr_done h3)
    have hn' : PlainNames n.network.name rt := hn
    rw [cachePath_eq hn'] at hc
    cases hc
    exact ⟨content, by simp [hm, ApiOp.key, ApiOp.cfg, ApiOp.name, ApiOp.rt]⟩
  | _ => exact absurd rfl ha

/-! ### the theorems -/

theorem inter_mid {ps ps' : List (Prog α)} {fs fs' : FS} {l : List (Nat × Move)} {j : Nat} {a : Act} {r : a.Resp} {l1 l2 : List (Nat × Move)}
    {p : Prog α} (h : Inter flt ps fs l ps' fs') (hl : l = l1 ++ (j, .call ⟨a, r⟩) :: l2) (hj : ps[j]? = some p) :
    ∃ p', ps'[j]? = some p' ∧ Path p (callsBy j l1 ++ ⟨a, r⟩ :: callsBy j l2) p' := by
  obtain ⟨p', h1, h2⟩ := inter_path h j hj
  refine ⟨p', h1, ?_⟩
  rw [hl, callsBy_append, callsBy_cons] at h2
  exact h2

theorem inter_client {clients : List Client} {fs fs' : FS} {l l1 l2 : List (Nat × Move)} {ps' : List (Prog Ended)} {j : Nat} {e : Event}
    (h : Inter flt (clients.map Client.run) fs l ps' fs') (hl : l = l1 ++ (j, .call e) :: l2) : ∃ cl, clients[j]? = some cl := by
  subst hl
  obtain ⟨a, r⟩ := e
  obtain ⟨mid, now, k, h1, hk⟩ := inter_before h
  cases hc : clients[j]? with
  | some cl => exact ⟨cl, rfl⟩
  | none =>
    exfalso
    have hn : ∀ {ps ps' : List (Prog Ended)} {fs fs' : FS} {l : List (Nat × Move)}, Inter flt ps fs l ps' fs' → ps'.length = ps.length := by
      intro ps ps' fs fs' l h
      induction h with
      | refl => rfl
      | call _ _ _ ih => rw [ih, List.length_set]
      | part _ _ _ ih => exact ih
    have h2 := hn h1
    rw [List.length_map] at h2
    have h3 : j < mid.length := (List.getElem?_eq_some_iff.1 hk).1
    rw [List.getElem?_eq_none_iff] at hc
    omega

theorem path_client_write {cl : Client} {tr : Trace} {q c : Bytes} {k : (Act.writeFile q c).Resp → Prog Ended}
    (h : Path cl.run tr (.op (.writeFile q c) k)) : ∃ ops, cl = .session ops := by
  have never : ∀ {P : Act → Prop}, cl.run.All P → ¬ P (.writeFile q c) → ∃ ops, cl = .session ops := fun h1 h2 => absurd (h.act h1) h2
  cases cl with
  | gc c list valid =>
    refine never (P := fun a => a.writes = none ∨ ∃ p, a = .remove p) (Client.run_of_prog ((gcNetworkList_acts.mono fun a ha => ?_).attempt.bind
      fun _ => trivial)) (by rintro (h | ⟨p, h⟩) <;> cases h)
    rcases ha with ha | ⟨x, -, p, -, rfl⟩
    · exact .inl ha
    · exact .inr ⟨p, rfl⟩
  | listing c cid =>
    exact never (P := fun a => a.writes = none) (Client.run_of_prog ((getCachedAttachments_looks.mono fun a ha => ha.1).attempt.bind
      fun _ => trivial)) (by intro h; cases h)
  | session ops => exact ⟨ops, rfl⟩

theorem path_client_remove {cl : Client} (hp : cl.Proper) {tr : Trace} {q : Bytes} {k : (Act.remove q).Resp → Prog Ended}
    (h : Path cl.run tr (.op (.remove q) k)) : MayRemove q cl := by
  cases cl with
  | gc c list valid =>
    have := h.act (P := fun a => a.writes = none ∨ ∃ x, Stale list.name valid x ∧ ∃ p, c.cachePath list.name (rtOf x) = .ok p ∧ a = .remove p)
      (Client.run_of_prog (gcNetworkList_acts.attempt.bind fun _ => trivial))
    rcases this with h | ⟨x, hx, p, hc, he⟩
    · cases h
    · cases he
      exact ⟨x, hx, hc⟩
  | listing c cid =>
    have := h.act (P := fun a => a.writes = none) (Client.run_of_prog ((getCachedAttachments_looks.mono fun a ha => ha.1).attempt.bind
      fun _ => trivial))
    cases this
  | session ops =>
    obtain ⟨op, ho, pre, tr', k', rfl, hpo⟩ := path_run h
    exact ⟨op, ho, path_remove (hp op ho) hpo⟩

/-- Files do not fail. At any moment of a concurrent run, a file of the cache has what it had before if no call changed it; or
what the last call that changed it left there; or a client is in the middle of an ADD of that attachment, all plugins have
succeeded, and the file has the first bytes of what that ADD is storing. -/
theorem c71_now (clients : List Client) (hp : ∀ cl ∈ clients, cl.Proper) (fs fs' : FS) (l : List (Nat × Move)) (ps' : List (Prog Ended))
    (h : Inter false (clients.map Client.run) fs l ps' fs') (q : Bytes) :
    (Untouched q l ∧ fs' q = fs q) ∨ (∃ l1 j, LastChange q l l1 j (fs' q)) ∨
      ∃ r left content n, AddedIn clients l q r left ∧ left q = some content ∧ fs' q = some (content.take n) := by
  rcases inter_last (q := q) h (fs q) (.inl rfl) with h1 | ⟨j, content, k, n, hj, hb⟩
  · rw [h1]
    rcases lastLeft_spec l (fs q) with ⟨h2, h3⟩ | ⟨l1, j, h2⟩
    · exact .inl ⟨h2, h3⟩
    · exact .inr (.inl ⟨l1, j, h2⟩)
  · refine .inr (.inr ?_)
    have hlen : ∀ {ps ps' : List (Prog Ended)} {fs fs' : FS} {l : List (Nat × Move)}, Inter false ps fs l ps' fs' → ps'.length = ps.length := by
      intro ps ps' fs fs' l h
      induction h with
      | refl => rfl
      | call _ _ _ ih => rw [ih, List.length_set]
      | part _ _ _ ih => exact ih
    have hlt : j < clients.length := by
      have := (List.getElem?_eq_some_iff.1 hj).1
      rw [hlen h, List.length_map] at this
      exact this
    obtain ⟨cl, hc⟩ : ∃ cl, clients[j]? = some cl := ⟨_, List.getElem?_eq_getElem hlt⟩
    obtain ⟨p', hp', hpath⟩ := inter_path h j (p := cl.run) (by rw [List.getElem?_map, hc]; rfl)
    rw [hj] at hp'
    cases hp'
    obtain ⟨ops, rfl⟩ := path_client_write hpath
    obtain ⟨op, ho, pre, tr, k', htr, hpo⟩ := path_run hpath
    have hop := hp _ (List.mem_of_getElem? hc) op ho
    obtain ⟨r, conf, info, ha, rfl, hi, rfl, hr⟩ := path_write hop hpo
    exact ⟨r, _, _, n, ⟨op, rfl, j, ops, pre, tr, [], info.json.print, fs, hc, ho, by rw [ha]; simp, by rw [htr, List.append_nil],
      hr fs, FS.set_same ..⟩, FS.set_same .., hb⟩

/-- Files do not fail and all clients have ended. Then every file of the cache has what it had before, and no call has
changed it; or it is gone, the last change was a removal, by a client that made a DEL of that attachment or a garbage
collection for which it was stale; or the last change was the write of an ADD of that attachment, which succeeded, and the file has
exactly what that ADD, run alone with the same answers of the plugins and with the same reply, leaves there. -/
theorem c71_settled (clients : List Client) (hp : ∀ cl ∈ clients, cl.Proper) (fs fs' : FS) (l : List (Nat × Move)) (ps' : List (Prog Ended))
    (h : Inter false (clients.map Client.run) fs l ps' fs') (hd : AllEnded ps') (q : Bytes) :
    (Untouched q l ∧ fs' q = fs q) ∨
    (∃ l1 j cl, LastChange q l l1 j none ∧ fs' q = none ∧ clients[j]? = some cl ∧ MayRemove q cl) ∨
    ∃ l1 j n op r before tr after content left, LastChange q l l1 j (some content) ∧ op.key = q ∧ op.added ≠ none ∧
      Replied clients ps' j n op (.ok (.result r)) ∧ callsBy j l = before ++ tr ++ after ∧
      Runs false op.call fs tr left (.ok (.result r)) ∧ left q = some content ∧ fs' q = some content := by
  have hlast : fs' q = lastLeft q l (fs q) := by
    rcases inter_last (q := q) h (fs q) (.inl rfl) with h1 | ⟨j, content, k, n, hj, hb⟩
    · exact h1
    · obtain ⟨x, hx⟩ := hd j _ hj
      cases hx
  rcases lastLeft_spec l (fs q) with ⟨h2, h3⟩ | ⟨l1, j, hl⟩
  · exact .inl ⟨h2, hlast.trans h3⟩
  · refine .inr ?_
    have hl' := hl
    rw [← hlast] at hl
    obtain ⟨e, l2, he, hv, hu⟩ := hl
    obtain ⟨cl, hc⟩ := inter_client h he
    have hcp := hp _ (List.mem_of_getElem? hc)
    rcases leaves_eq hv with ⟨content, h4, rfl⟩ | ⟨h4, rfl⟩
    · refine .inr ?_
      obtain ⟨p', hp', hpath⟩ := inter_mid h he (p := cl.run) (by rw [List.getElem?_map, hc]; rfl)
      obtain ⟨x, rfl⟩ := hd j _ hp'
      obtain ⟨k, hk⟩ := path_next hpath
      obtain ⟨ops, rfl⟩ := path_client_write hk
      obtain ⟨rs, rfl, hs⟩ := path_run_done hpath
      obtain ⟨n, op, pre, tr, post1, post2, o, hn, h5, h6, h7, h8⟩ := path_session_at hs
      have hop := hcp op (List.mem_of_getElem? hn)
      obtain ⟨k', hk'⟩ := path_next h7
      obtain ⟨r, conf, info, ha, hq, hi, hcon, hr⟩ := path_write hop hk'
      have hr1 := runs_path (hr fs)
      have hpost : post1 = [] := path_det hr1 (rest := post1) (by rw [List.append_assoc]; exact h7)
      subst hpost
      have ho : o = .ok (.result r) := by
        have hdd : ∀ {p : Prog Reply} {tr : Trace} {o1 o2 : Out Reply}, Path p tr (.done o1) → Path p tr (.done o2) → o1 = o2 := by
          intro p
          induction p with
          | done o => intro tr o1 o2 h1 h2; cases (path_done h1).2; cases (path_done h2).2; rfl
          | op a k ih =>
            intro tr o1 o2 h1 h2
            cases h1 with
            | step h1 => cases h2 with
              | step h2 => exact ih _ h1 h2
        exact hdd h7 hr1
      refine ⟨l1, j, n, op, r, pre, tr ++ [⟨.writeFile q content, true⟩], post2, content, _, by rw [← h4, hlast]; exact hl', hq.symm,
        by rw [ha]; simp, ⟨ops, rs, hc, hn, hp', h8 _ ho⟩, ?_, hr fs, FS.set_same .., h4⟩
      rw [he, callsBy_append, callsBy_cons, h5, h6]
      simp
    · refine .inl ⟨l1, j, cl, by rw [← h4, hlast]; exact hl', h4, hc, ?_⟩
      obtain ⟨p', hp', hpath⟩ := inter_mid h he (p := cl.run) (by rw [List.getElem?_map, hc]; rfl)
      obtain ⟨k, hk⟩ := path_next hpath
      exact path_client_remove hcp hk

/-- If an ADD of the attachment succeeded and no client makes a DEL of it or a garbage collection for which it is stale, then in the
end the cache has exactly what one of the successful ADDs stored: reading it gives what it gives after that ADD alone. -/
theorem c71_kept (clients : List Client) (hp : ∀ cl ∈ clients, cl.Proper) (fs fs' : FS) (l : List (Nat × Move)) (ps' : List (Prog Ended))
    (h : Inter false (clients.map Client.run) fs l ps' fs') (hd : AllEnded ps') (j n : Nat) (op : ApiOp) (ha : op.added ≠ none) (x : Reply)
    (hr : Replied clients ps' j n op (.ok x)) (hno : ∀ cl ∈ clients, ¬ MayRemove op.key cl) :
    ∃ j' n' op' r tr left, op'.key = op.key ∧ op'.added ≠ none ∧ Replied clients ps' j' n' op' (.ok (.result r)) ∧
      Runs false op'.call fs tr left (.ok (.result r)) ∧ left op.key ≠ none ∧ fs' op.key = left op.key := by
  rcases c71_settled clients hp fs fs' l ps' h hd op.key with ⟨hu, -⟩ | ⟨l1, j', cl, -, -, hc, hm⟩ |
    ⟨l1, j', n', op', r, before, tr, after, content, left, -, hk, ha', hrep, -, hrun, hl, hf⟩
  · exfalso
    obtain ⟨ops, rs, hc, hn, hj, hx⟩ := hr
    obtain ⟨p', hp', hpath⟩ := inter_path h j (p := (Client.session ops).run) (by rw [List.getElem?_map, hc]; rfl)
    rw [hj] at hp'
    cases hp'
    obtain ⟨rs', he, hs⟩ := path_run_done hpath
    cases he
    obtain ⟨op', ho, tr, hsub, hcall⟩ := path_session_done hs n x hx
    rw [hn] at ho
    cases ho
    have hop := hp _ (List.mem_of_getElem? hc) op (List.mem_of_getElem? hn)
    obtain ⟨content, hm⟩ := path_added hop ha hcall
    have := hu j _ (mem_callsBy (hsub _ hm))
    simp [leaves] at this
  · exact absurd hm (hno _ (List.mem_of_getElem? hc))
  · exact ⟨j', n', op', r, tr, left, hk, ha', hrep, hrun, by rw [hl]; simp, by rw [hf, hl]⟩

namespace Example

/-- The attachment of `rt`, with other arguments. Test data; models no code. -/
def rtAgain : RuntimeConf := { rt with args := [(b!"K", b!"W")] }

/-- Two ADDs of one attachment. Test data; models no code. -/
def twins : List Client := [.session [.add cfg list rt], .session [.add cfg list rtAgain]]

theorem twins_proper : ∀ cl ∈ twins, cl.Proper := by
  have hn : PlainNames list.name rt := ⟨by decide +kernel, by decide +kernel, by decide +kernel⟩
  have hn' : PlainNames list.name rtAgain := ⟨by decide +kernel, by decide +kernel, by decide +kernel⟩
  simp only [twins, List.mem_cons, List.not_mem_nil, or_false]
  rintro cl (rfl | rfl)
  · simp only [Client.Proper, List.mem_cons, List.not_mem_nil, or_false]
    rintro op rfl
    exact ⟨hn, (by intro kv h; cases h), rt_ok.sorted⟩
  · simp only [Client.Proper, List.mem_cons, List.not_mem_nil, or_false]
    rintro op rfl
    exact ⟨hn', (by intro kv h; cases h), rt_ok.sorted⟩

/-- The client has succeeded in all it did. Observation in tests; models no code. -/
def allOk : Prog Ended → Bool
  | .done (.ok (.session rs)) => rs.all fun r => r.toOption.isSome
  | _ => false

/-- The entry of the second ADD. Test data; models no code. -/
def entryTwo : Bytes := b!"{\"kind\":\"cniCacheV1\",\"containerId\":\"c1\",\"config\":\"e30=\",\"ifName\":\"eth0\",\"networkName\":\"net\",\"netns\":\"/ns\",\"cniArgs\":[[\"K\",\"W\"]],\"result\":{\"cniVersion\":\"1.0.0\",\"dns\":{\"domain\":\"d\"}}}"

theorem twins_run {sch : List (Nat × Option Nat)} {b : Option Bytes} {e : List Bool}
    (h : (Prog.interInterp find good sch (twins.map Client.run) noFiles).map (fun x => (x.2.1.map allOk, x.2.2 key)) = some (e, b)) :
    ∃ l ps' fs', Inter false (twins.map Client.run) noFiles l ps' fs' ∧ ps'.map allOk = e ∧ fs' key = b := by
  obtain ⟨x, hx, he⟩ := Option.map_eq_some_iff.1 h
  cases he
  exact ⟨_, _, _, Prog.interInterp_inter hx, rfl, rfl⟩

/-- Both ADDs are writing at the same time; both succeed, and the file has the entry of the one that finishes last. -/
example : ∃ l ps' fs', Inter false (twins.map Client.run) noFiles l ps' fs' ∧ ps'.map allOk = [true, true] ∧ fs' key = some entry :=
  twins_run (sch := [(0, none), (1, none), (0, none), (1, none), (0, none), (1, none), (0, none), (1, none), (0, none), (1, none),
    (0, some 60), (1, some 0), (1, none), (0, some 20), (0, none)]) (by decide +kernel)

example : ∃ l ps' fs', Inter false (twins.map Client.run) noFiles l ps' fs' ∧ ps'.map allOk = [true, true] ∧ fs' key = some entryTwo :=
  twins_run (sch := [(0, none), (1, none), (0, none), (1, none), (0, none), (1, none), (0, none), (1, none), (0, none), (1, none),
    (0, some 60), (0, none), (1, some 0), (1, none)]) (by decide +kernel)

/-- One ADD has ended, the other one is in the middle of writing its entry. -/
example : ∃ l ps' fs', Inter false (twins.map Client.run) noFiles l ps' fs' ∧ ps'.map allOk = [true, false] ∧ fs' key = some b!"{\"ki" :=
  twins_run (sch := [(0, none), (1, none), (0, none), (1, none), (0, none), (1, none), (0, none), (1, none), (0, none), (1, none),
    (0, none), (1, some 4)]) (by decide +kernel)

/-- Nobody removes this file. -/
example : ∀ cl ∈ twins, ¬ MayRemove key cl := by
  simp only [twins, List.mem_cons, List.not_mem_nil, or_false]
  rintro cl (rfl | rfl) ⟨op, ho, hd, -⟩ <;>
  · simp only [List.mem_cons, List.not_mem_nil, or_false] at ho
    subst ho
    cases hd

end Example

end Verif
