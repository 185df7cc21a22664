/- C49: operations on different attachments do not interfere. -/
import Verif.Props.CrashRead
import Verif.Spec.Inter

namespace Verif
open Spec
set_option linter.unusedSimpArgs false

variable {α : Type} {flt : Bool} {fs fs' : FS} {tr : Trace}

/-! ### programs that touch one file -/

/-- A call that touches no file but `q` can be made, with the same answer and effect on `q`, with other files being different. -/
theorem step_only {q : Bytes} {a : Act} {r : a.Resp} {fs1 fsS : FS} (ha : a.Only q) (hs : Step flt fs a r fs1) (he : fsS q = fs q) :
    ∃ fsS1, Step flt fsS a r fsS1 ∧ fsS1 q = fs1 q ∧ ∀ q', q' ≠ q → fsS1 q' = fsS q' := by
  cases hs with
  | find => exact ⟨_, .find .., he, fun _ _ => rfl⟩
  | exec => exact ⟨_, .exec .., he, fun _ _ => rfl⟩
  | readFile p => simp only [Act.Only] at ha; subst ha; exact ⟨_, he ▸ .readFile .., he, fun _ _ => rfl⟩
  | readFileFails p h => exact ⟨_, .readFileFails _ _ h, he, fun _ _ => rfl⟩
  | readDir => exact ha.elim
  | readDirMissing => exact ha.elim
  | readDirFails => exact ha.elim
  | mkdirAll => exact ⟨_, .mkdirAll .., he, fun _ _ => rfl⟩
  | mkdirAllFails p h => exact ⟨_, .mkdirAllFails _ _ h, he, fun _ _ => rfl⟩
  | writeFile p c =>
    simp only [Act.Only] at ha; subst ha
    exact ⟨_, .writeFile .., by rw [FS.set_same, FS.set_same], fun _ h => FS.set_other _ _ h⟩
  | writeFileFails p c h => exact ⟨_, .writeFileFails _ _ _ h, he, fun _ _ => rfl⟩
  | writeFileTorn p c n h =>
    simp only [Act.Only] at ha; subst ha
    exact ⟨_, .writeFileTorn _ _ _ n h, by rw [FS.set_same, FS.set_same], fun _ h => FS.set_other _ _ h⟩
  | remove p h =>
    simp only [Act.Only] at ha; subst ha
    exact ⟨_, .remove _ _ (by rw [he]; exact h), by rw [FS.set_same, FS.set_same], fun _ h => FS.set_other _ _ h⟩
  | removeMissing p h =>
    simp only [Act.Only] at ha; subst ha
    exact ⟨_, .removeMissing _ _ (by rw [he]; exact h), he, fun _ _ => rfl⟩
  | removeFails p h => exact ⟨_, .removeFails _ _ h, he, fun _ _ => rfl⟩

theorem runs_only {q : Bytes} {p : Prog α} {o : Out α} (hp : p.All (Act.Only q)) (h : Runs flt p fs tr fs' o) :
    ∀ {fsS : FS}, fsS q = fs q → ∃ fsS', Runs flt p fsS tr fsS' o ∧ fsS' q = fs' q ∧ ∀ q', q' ≠ q → fsS' q' = fsS q' := by
  induction h with
  | done => intro fsS he; exact ⟨fsS, .done _ _, he, fun _ _ => rfl⟩
  | op hs _ ih =>
    intro fsS he
    obtain ⟨fs1, h1, h2, h3⟩ := step_only hp.1 hs he
    obtain ⟨fs2, g1, g2, g3⟩ := ih (hp.2 _) h2
    exact ⟨fs2, .op h1 g1, g2, fun q' hq => by rw [g3 q' hq, h3 q' hq]⟩

/-! ### interleavings -/

theorem set_getElem? (ps : List (Prog α)) (i j : Nat) (p : Prog α) {x : Prog α} (hi : ps[i]? = some x) :
    (ps.set i p)[j]? = if i = j then some p else ps[j]? := by
  rw [List.getElem?_set]
  by_cases hij : i = j
  · have : i < ps.length := (List.getElem?_eq_some_iff.1 hi).1
    simp [hij, hij ▸ this]
  · simp [hij]

/-- The steps of the programs that touch nothing but `q` can be made without the others, if those do not change `q`. -/
theorem inter_project {ps ps' : List (Prog α)} {l : List (Nat × Move)} {own : Nat → Bool} {q : Bytes} (h : Inter flt ps fs l ps' fs') :
    (∀ (i : Nat) p, own i = true → ps[i]? = some p → p.All (Act.Only q)) →
    (∀ (i : Nat) p, own i = false → ps[i]? = some p → p.All fun a => a.writes ≠ some q) →
    ∀ {psS : List (Prog α)} {fsS : FS}, (∀ i : Nat, own i = true → psS[i]? = ps[i]?) → fsS q = fs q →
    ∃ psS' fsS', Inter flt psS fsS (stepsOf own l) psS' fsS' ∧ (∀ i : Nat, own i = true → psS'[i]? = ps'[i]?) ∧
      (∀ i : Nat, own i = false → psS'[i]? = psS[i]?) ∧ fsS' q = fs' q ∧ ∀ q', q' ≠ q → fsS' q' = fsS q' := by
  induction h with
  | refl => intro _ _ psS fsS h1 h2; exact ⟨psS, fsS, .refl _ _, h1, fun _ _ => rfl, h2, fun _ _ => rfl⟩
  | @call ps ps' i a k fs fs1 fs' r l hi hs _ ih =>
    intro ho hn psS fsS h1 h2
    have ho' : ∀ (j : Nat) p, own j = true → (ps.set i (k r))[j]? = some p → p.All (Act.Only q) := by
      intro j p hj hp
      rw [set_getElem? _ _ _ _ hi] at hp
      split at hp
      · cases hp; rename_i he; subst he; exact (ho _ _ hj hi).2 _
      · exact ho _ _ hj hp
    have hn' : ∀ (j : Nat) p, own j = false → (ps.set i (k r))[j]? = some p → p.All fun a => a.writes ≠ some q := by
      intro j p hj hp
      rw [set_getElem? _ _ _ _ hi] at hp
      split at hp
      · cases hp; rename_i he; subst he; exact (hn _ _ hj hi).2 _
      · exact hn _ _ hj hp
    cases hoi : own i with
    | true =>
      obtain ⟨fsS1, g1, g2, g3⟩ := step_only (ho _ _ hoi hi).1 hs h2
      have hSi : psS[i]? = some (.op a k) := by rw [h1 i hoi]; exact hi
      obtain ⟨psS', fsS', e1, e2, e3, e4, e5⟩ := ih ho' hn' (psS := psS.set i (k r)) (fsS := fsS1) (fun j hj => by
        rw [set_getElem? _ _ _ _ hi, set_getElem? _ _ _ _ hSi]
        split
        · rfl
        · exact h1 j hj) g2
      refine ⟨psS', fsS', ?_, e2, fun j hj => ?_, e4, fun q' hq => by rw [e5 q' hq, g3 q' hq]⟩
      · rw [stepsOf, List.filter_cons_of_pos (by simpa using hoi)]
        exact .call hSi g1 e1
      · rw [e3 j hj, set_getElem? _ _ _ _ hSi, if_neg]
        rintro rfl; rw [hoi] at hj; cases hj
    | false =>
      have hfr := step_frame hs (hn _ _ hoi hi).1
      obtain ⟨psS', fsS', e1, e2, e3, e4, e5⟩ := ih ho' hn' (psS := psS) (fsS := fsS) (fun j hj => by
        rw [set_getElem? _ _ _ _ hi, if_neg]
        · exact h1 j hj
        · rintro rfl; rw [hoi] at hj; cases hj) (by rw [hfr]; exact h2)
      refine ⟨psS', fsS', ?_, e2, e3, e4, e5⟩
      rw [stepsOf, List.filter_cons_of_neg (by simp [hoi])]
      exact e1
  | @part ps ps' i p c k fs fs' l hi n _ ih =>
    intro ho hn psS fsS h1 h2
    cases hoi : own i with
    | true =>
      have hq : p = q := (ho _ _ hoi hi).1
      subst hq
      have hSi : psS[i]? = some (.op (.writeFile p c) k) := by rw [h1 i hoi]; exact hi
      obtain ⟨psS', fsS', e1, e2, e3, e4, e5⟩ := ih ho hn (psS := psS) (fsS := fsS.set p (some (c.take n))) h1 (by
        rw [FS.set_same, FS.set_same])
      refine ⟨psS', fsS', ?_, e2, e3, e4, fun q' hq => by rw [e5 q' hq, FS.set_other _ _ hq]⟩
      rw [stepsOf, List.filter_cons_of_pos (by simpa using hoi)]
      exact .part hSi n e1
    | false =>
      have hq : q ≠ p := by
        rintro rfl; exact (hn _ _ hoi hi).1 rfl
      obtain ⟨psS', fsS', e1, e2, e3, e4, e5⟩ := ih ho hn (psS := psS) (fsS := fsS) h1 (by rw [FS.set_other _ _ hq]; exact h2)
      refine ⟨psS', fsS', ?_, e2, e3, e4, e5⟩
      rw [stepsOf, List.filter_cons_of_neg (by simp [hoi])]
      exact e1

/-- What a program that runs by itself has written of the data it is about to write makes no difference in the end. -/
theorem inter_single {ps ps' : List (Prog α)} {l : List (Nat × Move)} {i : Nat} {o : Out α} (h : Inter flt ps fs l ps' fs') :
    (∀ x ∈ l, x.1 = i) → ps'[i]? = some (.done o) → ∀ {p : Prog α} {fsR : FS}, ps[i]? = some p →
    (fs = fsR ∨ ∃ w c k n, p = .op (.writeFile w c) k ∧ fs = fsR.set w (some (c.take n))) →
    Runs flt p fsR (l.filterMap fun x => x.2.event?) fs' o := by
  induction h with
  | refl =>
    intro _ hd p fsR hp hr
    rw [hd] at hp; cases hp
    rcases hr with rfl | ⟨_, _, _, _, h, -⟩
    · exact .done _ _
    · cases h
  | @call ps ps' j a k fs fs1 fs' r l hi hs _ ih =>
    intro hl hd p fsR hp hr
    have hj : j = i := hl _ (List.mem_cons_self ..)
    subst hj
    have hpp : p = .op a k := by rw [hi] at hp; exact (Option.some.inj hp).symm
    subst hpp
    have key : ∀ fsR1, Step flt fsR a r fsR1 → fs1 = fsR1 →
        Runs flt (.op a k) fsR (((j, Move.call ⟨a, r⟩) :: l).filterMap fun x => x.2.event?) fs' o := by
      intro fsR1 hstep he
      exact .op hstep (ih (fun x hx => hl x (List.mem_cons_of_mem _ hx)) hd (by rw [set_getElem? _ _ _ _ hi, if_pos rfl]) (.inl he))
    rcases hr with rfl | ⟨w, c, k', n, h, rfl⟩
    · exact key _ hs rfl
    · cases h
      cases hs with
      | writeFile => exact key _ (.writeFile ..) (FS.set_set ..)
      | writeFileFails _ _ hf => exact key _ (.writeFileTorn _ _ _ n hf) rfl
      | writeFileTorn _ _ m hf => exact key _ (.writeFileTorn _ _ _ m hf) (FS.set_set ..)
  | @part ps ps' j w c k fs fs' l hi n _ ih =>
    intro hl hd p fsR hp hr
    have hj : j = i := hl _ (List.mem_cons_self ..)
    subst hj
    have hpp : p = .op (.writeFile w c) k := by rw [hi] at hp; exact (Option.some.inj hp).symm
    subst hpp
    refine ih (fun x hx => hl x (List.mem_cons_of_mem _ hx)) hd hp (.inr ?_)
    rcases hr with rfl | ⟨w', c', k', n', h, rfl⟩
    · exact ⟨w, c, k, n, rfl, rfl⟩
    · cases h; exact ⟨w, c, k, n, rfl, FS.set_set ..⟩

/-! ### the operations -/

theorem Spec.ApiOp.call_only {op : ApiOp} (hn : PlainNames op.name op.rt) : op.call.All (Act.Only op.key) := by
  have h1 : ∀ {c : CNIConfig} {name : Bytes} {rt : RuntimeConf} {a : Act}, PlainNames name rt →
      (a.Plugins ∨ Act.At (c.cachePath name rt) a) → a.Only (entryPath c name rt) := by
    rintro c name rt a hn (h | ⟨p, hp, h⟩)
    · exact h.only _
    · rw [cachePath_eq hn] at hp; cases hp; exact h
  have h2 : ∀ {c : CNIConfig} {name : Bytes} {rt : RuntimeConf} {a : Act}, PlainNames name rt →
      (a.Plugins ∨ ∃ p, c.cachePath name rt = .ok p ∧ (a = .readFile p ∨ a = .remove p)) → a.Only (entryPath c name rt) := by
    rintro c name rt a hn (h | ⟨p, hp, rfl | rfl⟩)
    · exact h.only _
    · rw [cachePath_eq hn] at hp; cases hp; exact rfl
    · rw [cachePath_eq hn] at hp; cases hp; exact rfl
  have h3 : ∀ {c : CNIConfig} {name : Bytes} {rt : RuntimeConf} {a : Act}, PlainNames name rt →
      (∃ p, a = .readFile p ∧ c.cachePath name rt = .ok p) → a.Only (entryPath c name rt) := by
    rintro c name rt a hn ⟨p, rfl, hp⟩
    rw [cachePath_eq hn] at hp; cases hp; exact rfl
  cases op with
  | add c l rt => exact (addNetworkList_acts.mono fun a h => h1 hn h).bind fun _ => trivial
  | addNetwork c n rt => exact (addNetwork_acts.mono fun a h => h1 hn h).bind fun _ => trivial
  | del c l rt => exact (delNetworkList_acts.mono fun a h => h2 hn h).bind fun _ => trivial
  | delNetwork c n rt => exact (delNetwork_acts.mono fun a h => h2 hn h).bind fun _ => trivial
  | check c l rt => exact (checkNetworkList_acts.mono fun a h => h2 hn (h.imp id fun ⟨p, x, y⟩ => ⟨p, x, .inl y⟩)).bind fun _ => trivial
  | checkNetwork c n rt => exact (checkNetwork_acts.mono fun a h => h2 hn (h.imp id fun ⟨p, x, y⟩ => ⟨p, x, .inl y⟩)).bind fun _ => trivial
  | cachedResult c l rt => exact (getCachedResult_looks.mono fun a h => h3 hn h).bind fun _ => trivial
  | cachedConfig c l rt => exact (getCachedConfig_looks.mono fun a h => h3 hn h).bind fun _ => trivial

theorem session_all {P : Act → Prop} {ops : List ApiOp} (h : ∀ op ∈ ops, op.call.All P) : (session ops).All P := by
  induction ops with
  | nil => trivial
  | cons op ops ih =>
    exact (h op (List.mem_cons_self ..)).attempt.bind fun _ => (ih fun o ho => h o (List.mem_cons_of_mem _ ho)).bind fun _ => trivial

theorem gcNetworkList_acts {c : CNIConfig} {list : NetConfList} {valid : Option (List GCAttachment)} :
    (c.gcNetworkList list valid).All fun a => a.writes = none ∨
      ∃ x, Stale list.name valid x ∧ ∃ p, c.cachePath list.name (rtOf x) = .ok p ∧ a = .remove p := by
  unfold CNIConfig.gcNetworkList
  split
  · trivial
  · refine Prog.All.bind (getCachedAttachments_looks.mono fun a h => .inl h.1).attempt fun r => ?_
    cases r with
    | error g => trivial
    | ok atts =>
      refine Prog.All.bind (gcDelLoop_acts.mono fun a h => h.imp id fun ⟨x, _, h⟩ => ⟨x, h⟩) fun errs => ?_
      split
      · exact (gcLoop_plugins.mono fun _ h => .inl h.readonly).bind fun _ => trivial
      · trivial

theorem Spec.Client.owns_only {cl : Client} {q : Bytes} (hn : cl.Plain) (h : cl.Owns q) : cl.prog.All (Act.Only q) := by
  cases cl with
  | session ops => exact session_all fun op ho => h op ho ▸ ApiOp.call_only (hn op ho)
  | gc => exact h.elim
  | listing => exact h.elim

theorem Spec.Client.avoids_writes {cl : Client} {q : Bytes} (hn : cl.Plain) (h : cl.Avoids q) : cl.prog.All fun a => a.writes ≠ some q := by
  cases cl with
  | session ops => exact session_all fun op ho => (ApiOp.call_only (hn op ho)).mono fun a ha => ha.writes fun he => h op ho he.symm
  | gc c list valid =>
    refine (gcNetworkList_acts.mono fun a ha => ?_).attempt.bind fun _ => trivial
    rcases ha with ha | ⟨x, hx, p, hp, rfl⟩
    · rw [ha]; simp
    · intro he
      cases he
      exact h x hx hp
  | listing c cid => exact (getCachedAttachments_looks.mono fun a ha => by rw [ha.1]; simp).attempt.bind fun _ => trivial

/-! ### C49 -/

/-- Clients run concurrently in any interleaving. Take a cache entry, and suppose each client either works on this entry only or
does not concern it. Then the steps of the clients that work on the entry are, by themselves and in the same order, a run from the
same start without the others having done anything; it leaves those clients at the same point with the same answers, and the
entry with the same contents. -/
theorem c49_projection (clients : List Client) (hn : ∀ cl ∈ clients, cl.Plain) (q : Bytes) (own : Nat → Bool)
    (hown : ∀ (i : Nat) cl, clients[i]? = some cl → if own i then cl.Owns q else cl.Avoids q) (fs fs' : FS) (l : List (Nat × Move))
    (ps' : List (Prog (List (Except GoErr Reply)))) (h : Inter flt (clients.map Client.prog) fs l ps' fs') :
    ∃ ps'' fs'', Inter flt (clients.map Client.prog) fs (stepsOf own l) ps'' fs'' ∧
      (∀ i : Nat, own i = true → ps''[i]? = ps'[i]?) ∧ (∀ i : Nat, own i = false → ps''[i]? = clients[i]?.map Client.prog) ∧
      fs'' q = fs' q ∧ ∀ q', q' ≠ q → fs'' q' = fs q' := by
  have hget : ∀ (i : Nat) p, (clients.map Client.prog)[i]? = some p → ∃ cl, clients[i]? = some cl ∧ cl ∈ clients ∧ p = cl.prog := by
    intro i p hp
    rw [List.getElem?_map, Option.map_eq_some_iff] at hp
    obtain ⟨cl, hc, rfl⟩ := hp
    exact ⟨cl, hc, List.mem_of_getElem? hc, rfl⟩
  obtain ⟨ps'', fs'', h1, h2, h3, h4, h5⟩ := inter_project (own := own) (q := q) h (fun i p ho hp => by
      obtain ⟨cl, hc, hm, rfl⟩ := hget i p hp
      have := hown i cl hc
      rw [ho] at this
      exact Client.owns_only (hn cl hm) this) (fun i p ho hp => by
      obtain ⟨cl, hc, hm, rfl⟩ := hget i p hp
      have := hown i cl hc
      rw [ho] at this
      exact Client.avoids_writes (hn cl hm) (by simpa using this)) (psS := clients.map Client.prog) (fsS := fs) (fun _ _ => rfl) rfl
  exact ⟨ps'', fs'', h1, h2, fun i hi => by rw [h3 i hi, List.getElem?_map], h4, h5⟩

theorem callsBy_eq (i : Nat) (l : List (Nat × Move)) :
    callsBy i l = (stepsOf (fun j => decide (j = i)) l).filterMap fun x => x.2.event? := rfl

/-- One client works on an entry that no other client concerns. When it has finished, in whatever interleaving with the others, it
could have run alone from the same start, making the same calls (so executing the same plugins with the same input) with the same
answers and the same outcome, and leaving the same contents in the entry. -/
theorem c49_alone (clients : List Client) (hn : ∀ cl ∈ clients, cl.Plain) (q : Bytes) (i : Nat) (ops : List ApiOp)
    (hi : clients[i]? = some (.session ops)) (ho : ∀ op ∈ ops, op.key = q)
    (ha : ∀ (j : Nat) cl, j ≠ i → clients[j]? = some cl → cl.Avoids q) (fs fs' : FS) (l : List (Nat × Move))
    (ps' : List (Prog (List (Except GoErr Reply)))) (h : Inter flt (clients.map Client.prog) fs l ps' fs')
    (o : Out (List (Except GoErr Reply))) (hd : ps'[i]? = some (.done o)) :
    ∃ fs'', Runs flt (session ops) fs (callsBy i l) fs'' o ∧ fs'' q = fs' q ∧ ∀ q', q' ≠ q → fs'' q' = fs q' := by
  obtain ⟨ps'', fs'', h1, h2, h3, h4, h5⟩ := c49_projection clients hn q (fun j => decide (j = i)) (fun j cl hc => by
    by_cases hj : j = i
    · subst hj
      rw [hi] at hc; cases hc
      simp only [decide_true, if_true]
      exact ho
    · simp only [hj, decide_false]
      exact ha j cl hj hc) fs fs' l ps' h
  refine ⟨fs'', ?_, h4, h5⟩
  rw [callsBy_eq]
  refine inter_single (i := i) h1 (fun x hx => ?_) (by rw [h2 i (by simp)]; exact hd)
    (by rw [List.getElem?_map, hi]; rfl) (.inl rfl)
  have := (List.mem_filter.1 hx).2
  simpa using this

/-- The outcome of an operation as the client sees it. -/
theorem session_history {ops : List ApiOp} : ∀ {fs fs' : FS} {tr : Trace} {rs : List (Except GoErr Reply)},
    Runs false (session ops) fs tr fs' (.ok rs) →
    ∃ h, History h fs fs' ∧ h.map Prod.fst = ops ∧ h.map (fun x => x.2) = rs.map fun r => match r with | .ok x => Out.ok x | .error g => .err g := by
  induction ops with
  | nil =>
    intro fs fs' tr rs h
    obtain ⟨-, rfl, h⟩ := runs_done.1 h
    cases h
    exact ⟨[], .nil _, rfl, rfl⟩
  | cons op ops ih =>
    intro fs fs' tr rs h
    unfold session at h
    obtain ⟨tr1, tr2, fs1, o1, -, h1, h2⟩ := runs_bind.1 h
    obtain ⟨o, h1', ho⟩ := runs_attempt.1 h1
    cases o1 with
    | err g => cases h2.2.2
    | panic => cases h2.2.2
    | ok r =>
      obtain ⟨tr3, tr4, fs3, o3, -, h3, h4⟩ := runs_bind.1 h2
      cases o3 with
      | err g => cases h4.2.2
      | panic => cases h4.2.2
      | ok rs' =>
        obtain ⟨-, rfl, h4⟩ := runs_done.1 h4
        cases h4
        obtain ⟨hh, g1, g2, g3⟩ := ih h3
        refine ⟨(op, o) :: hh, .cons h1' g1, by simp [g2], ?_⟩
        cases o with
        | ok x => simp only [attemptOut] at ho; cases ho; simp [g3]
        | err g => simp only [attemptOut] at ho; cases ho; simp [g3]
        | panic => simp only [attemptOut] at ho; cases ho

/-- So, in whatever interleaving, what is read from an entry after the client that works on it has finished is what that client's
own operations, in its order and with the outcomes it saw, have left there: the result and configuration of its last successful
ADD, nothing if a DEL succeeded since. -/
theorem c49_cache (clients : List Client) (hn : ∀ cl ∈ clients, cl.Plain) (q : Bytes) (i : Nat) (ops : List ApiOp)
    (hi : clients[i]? = some (.session ops)) (hp : ∀ op ∈ ops, op.Proper) (ho : ∀ op ∈ ops, op.key = q)
    (ha : ∀ (j : Nat) cl, j ≠ i → clients[j]? = some cl → cl.Avoids q) (fs fs' : FS) (h0 : fs q = none) (l : List (Nat × Move))
    (ps' : List (Prog (List (Except GoErr Reply)))) (h : Inter false (clients.map Client.prog) fs l ps' fs')
    (rs : List (Except GoErr Reply)) (hd : ps'[i]? = some (.done (.ok rs))) :
    ∃ h s, h.map Prod.fst = ops ∧ h.map (fun x => x.2) = (rs.map fun r => match r with | .ok x => Out.ok x | .error g => .err g) ∧
      Effects q h none s ∧
      ∀ (c : CNIConfig) (list : NetConfList) (rt : RuntimeConf), PlainNames list.name rt → entryPath c list.name rt = q →
        (∀ tr fs2 o, Runs false (c.getNetworkListCachedResult list rt) fs' tr fs2 o →
          (s = none → o = .ok none) ∧
          (∀ st r r', s = some st → st.result = some r → Representable true r → r.getAsVersion list.cniVersion = .ok r' →
            o = .ok (some r'))) ∧
        (∀ tr fs2 o, Runs false (c.getNetworkListCachedConfig list rt) fs' tr fs2 o →
          (s = none → o = .ok none) ∧
          (∀ st, s = some st → ∃ rt', o = .ok (some (st.config, rt')))) := by
  obtain ⟨fs'', h1, h2, -⟩ := c49_alone clients hn q i ops hi ho ha fs fs' l ps' h _ hd
  obtain ⟨hh, g1, g2, g3⟩ := session_history h1
  obtain ⟨s, e1, e2⟩ := c18_history q hh fs fs'' g1 (fun x hx => hp x.1 (g2 ▸ List.mem_map_of_mem hx)) h0
  refine ⟨hh, s, g2, g3, e1, fun c list rt hpl hk => ?_⟩
  obtain ⟨k1, k2⟩ := e2 c list rt hpl hk
  have key : ∀ {a : Act}, (∃ p, a = .readFile p ∧ c.cachePath list.name rt = .ok p) → a.Only q := by
    rintro a ⟨p, rfl, hp⟩
    rw [cachePath_eq hpl, hk] at hp; cases hp; exact rfl
  refine ⟨fun tr fs2 o hr => ?_, fun tr fs2 o hr => ?_⟩
  · obtain ⟨fsS, hr', -⟩ := runs_only (getCachedResult_looks.mono fun a ha => key ha) hr h2
    exact k1 _ _ _ hr'
  · obtain ⟨fsS, hr', -⟩ := runs_only (getCachedConfig_looks.mono fun a ha => key ha) hr h2
    exact k2 _ _ _ hr'

/-- A file that no client concerns is as it was, at every point of every interleaving. -/
theorem c49_untouched (clients : List Client) (hn : ∀ cl ∈ clients, cl.Plain) (q : Bytes) (ha : ∀ cl ∈ clients, cl.Avoids q)
    (fs fs' : FS) (l : List (Nat × Move)) (ps' : List (Prog (List (Except GoErr Reply))))
    (h : Inter flt (clients.map Client.prog) fs l ps' fs') : fs' q = fs q := by
  obtain ⟨ps'', fs'', h1, -, -, h4, -⟩ := c49_projection clients hn q (fun _ => false)
    (fun i cl hc => by simpa using ha cl (List.mem_of_getElem? hc)) fs fs' l ps' h
  have : stepsOf (fun _ => false) l = [] := by simp [stepsOf]
  rw [this] at h1
  cases h1
  exact h4.symm

/-! ### concrete cases -/

namespace Example

/-- Two sessions on different attachments and a listing. -/
def clients : List Client :=
  [.session [.add cfg list rt, .check cfg list rt], .session [.add cfg list rt2], .listing cfg []]

/-- They satisfy the hypotheses of the theorems, for the entry of the first session. -/
example : (∀ cl ∈ clients, cl.Plain) ∧ clients[0]? = some (.session [.add cfg list rt, .check cfg list rt]) ∧
    (∀ op ∈ [ApiOp.add cfg list rt, .check cfg list rt], op.Proper ∧ op.key = key) ∧
    (∀ (j : Nat) cl, j ≠ 0 → clients[j]? = some cl → cl.Avoids key) := by
  have h1 : PlainNames list.name rt := ⟨by decide +kernel, by decide +kernel, by decide +kernel⟩
  have h2 : PlainNames list.name rt2 := ⟨by decide +kernel, by decide +kernel, by decide +kernel⟩
  refine ⟨?_, rfl, ?_, ?_⟩
  · simp only [clients, List.mem_cons, List.not_mem_nil, or_false]
    rintro cl (rfl | rfl | rfl)
    · simp only [Client.Plain, List.mem_cons, List.not_mem_nil, or_false]
      rintro op (rfl | rfl) <;> exact h1
    · simp only [Client.Plain, List.mem_cons, List.not_mem_nil, or_false]
      rintro op rfl; exact h2
    · trivial
  · simp only [List.mem_cons, List.not_mem_nil, or_false]
    rintro op (rfl | rfl)
    · exact ⟨ops_proper _ (by simp [ops]), by decide +kernel⟩
    · exact ⟨ops_proper _ (by simp [ops]), by decide +kernel⟩
  · intro j cl hj hc
    match j, hj with
    | 1, _ =>
      simp only [clients, List.getElem?_cons_succ, List.getElem?_cons_zero, Option.some.injEq] at hc
      subst hc
      simp only [Client.Avoids, List.mem_cons, List.not_mem_nil, or_false]
      rintro op rfl; decide +kernel
    | 2, _ =>
      simp only [clients, List.getElem?_cons_succ, List.getElem?_cons_zero, Option.some.injEq] at hc
      subst hc; trivial
    | j + 3, _ => simp [clients] at hc

/-- An interleaving: the plugins of the two ADDs alternate, and the second client completes its write while the first has written
10 bytes. In the end both entries are there, and the first client has finished. -/
example : ∃ l ps' fs', Inter false (clients.map Client.prog) noFiles l ps' fs' ∧
    (fs' key, (fs' b!"/cache/results/net-other-eth0").isSome, ps'.map (fun p => p.outcome?.isSome)) =
      (some entry, true, [true, true, false]) := by
  have h : ((Prog.interInterp find good
      ([(0, none), (1, none), (1, none), (0, none), (0, none), (0, none), (1, none), (1, none), (0, none), (0, some 10), (1, none), (1, none),
        (0, none), (0, none), (0, none), (0, none), (0, none), (0, none)]) (clients.map Client.prog) noFiles).map
      fun x => (x.2.2 key, (x.2.2 b!"/cache/results/net-other-eth0").isSome, x.2.1.map (fun p => p.outcome?.isSome))) =
      some (some entry, true, [true, true, false]) := by decide +kernel
  obtain ⟨x, hx, h⟩ := Option.map_eq_some_iff.1 h
  exact ⟨_, _, _, Prog.interInterp_inter hx, h⟩

end Example

end Verif
