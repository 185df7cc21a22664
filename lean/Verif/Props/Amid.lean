/- C65: listings and garbage collections while other clients use the cache. -/
import Verif.Spec.Amid
import Verif.Props.Inter
import Verif.Props.GcComplete

namespace Verif
open Spec

variable {flt : Bool} {α β : Type}

/-! ### a program among others -/

/-- A complete run of a program among others, which before each of its steps (and at the end) change the files as in `R`; `M` holds
of the files and its call at each of its steps. Proof device: models no code. -/
inductive Amid (flt : Bool) (R : FS → FS → Prop) (M : FS → Event → Prop) : Prog α → FS → Trace → FS → Out α → Prop
  | done {o : Out α} {fs fs' : FS} (h : R fs fs') : Amid flt R M (.done o) fs [] fs' o
  | op {a : Act} {k : a.Resp → Prog α} {fs fs1 fs2 fs3 : FS} {r : a.Resp} {tr : Trace} {o : Out α} (h : R fs fs1)
      (hm : M fs1 ⟨a, r⟩) (hs : Step flt fs1 a r fs2) (hr : Amid flt R M (k r) fs2 tr fs3 o) : Amid flt R M (.op a k) fs (⟨a, r⟩ :: tr) fs3 o

variable {R : FS → FS → Prop} {M : FS → Event → Prop}

/-- Proof device: models no code. -/
def AFollows (flt : Bool) (R : FS → FS → Prop) (M : FS → Event → Prop) (f : α → Prog β) : Out α → FS → Trace → FS → Out β → Prop
  | .ok a, fs, tr, fs', o => Amid flt R M (f a) fs tr fs' o
  | .err e, fs, tr, fs', o => tr = [] ∧ R fs fs' ∧ o = .err e
  | .panic, fs, tr, fs', o => tr = [] ∧ R fs fs' ∧ o = .panic

theorem amid_done {o o' : Out α} {fs fs' : FS} {tr : Trace} (h : Amid flt R M (.done o) fs tr fs' o') : tr = [] ∧ R fs fs' ∧ o' = o := by
  cases h with
  | done h => exact ⟨rfl, h, rfl⟩

theorem amid_op {a : Act} {k : a.Resp → Prog α} {o : Out α} {fs fs' : FS} {tr : Trace} (h : Amid flt R M (.op a k) fs tr fs' o) :
    ∃ r fs1 fs2 tr', R fs fs1 ∧ M fs1 ⟨a, r⟩ ∧ Step flt fs1 a r fs2 ∧ tr = ⟨a, r⟩ :: tr' ∧ Amid flt R M (k r) fs2 tr' fs' o := by
  cases h with
  | op h hm hs hr => exact ⟨_, _, _, _, h, hm, hs, rfl, hr⟩

theorem amid_bind (hR : ∀ fs, R fs fs) {p : Prog α} {f : α → Prog β} : ∀ {fs fs' : FS} {tr : Trace} {o : Out β},
    Amid flt R M (p.bind f) fs tr fs' o →
    ∃ tr1 tr2 fs1 o1, tr = tr1 ++ tr2 ∧ Amid flt R M p fs tr1 fs1 o1 ∧ AFollows flt R M f o1 fs1 tr2 fs' o := by
  induction p with
  | done o1 =>
    intro fs fs' tr o h
    cases o1 with
    | ok a => exact ⟨[], tr, fs, .ok a, rfl, .done (hR _), h⟩
    | err e => obtain ⟨rfl, h1, rfl⟩ := amid_done h; exact ⟨[], [], fs, .err e, rfl, .done (hR _), rfl, h1, rfl⟩
    | panic => obtain ⟨rfl, h1, rfl⟩ := amid_done h; exact ⟨[], [], fs, .panic, rfl, .done (hR _), rfl, h1, rfl⟩
  | op a k ih =>
    intro fs fs' tr o h
    obtain ⟨r, fs1, fs2, tr', h1, hm, hs, rfl, hr⟩ := amid_op h
    obtain ⟨tr1, tr2, fs3, o1, rfl, g1, g2⟩ := ih r hr
    exact ⟨_ :: tr1, tr2, fs3, o1, rfl, .op h1 hm hs g1, g2⟩

theorem amid_attempt {p : Prog α} : ∀ {fs fs' : FS} {tr : Trace} {o : Out (Except GoErr α)}, Amid flt R M p.attempt fs tr fs' o →
    ∃ o1, Amid flt R M p fs tr fs' o1 ∧ o = attemptOut o1 := by
  induction p with
  | done o1 =>
    intro fs fs' tr o h
    refine ⟨o1, ?_⟩
    cases o1 <;> (obtain ⟨rfl, h1, rfl⟩ := amid_done h; exact ⟨.done h1, rfl⟩)
  | op a k ih =>
    intro fs fs' tr o h
    obtain ⟨r, fs1, fs2, tr', h1, hm, hs, rfl, hr⟩ := amid_op h
    obtain ⟨o1, g1, g2⟩ := ih r hr
    exact ⟨o1, .op h1 hm hs g1, g2⟩

theorem Amid.mono {R' : FS → FS → Prop} {M' : FS → Event → Prop} {p : Prog α} {fs fs' : FS} {tr : Trace} {o : Out α}
    (h : Amid flt R M p fs tr fs' o) (hR : ∀ fs fs', R fs fs' → R' fs fs') (hM : ∀ fs e, M fs e → M' fs e) : Amid flt R' M' p fs tr fs' o := by
  induction h with
  | done h => exact .done (hR _ _ h)
  | op h hm hs _ ih => exact .op (hR _ _ h) (hM _ _ hm) hs ih

/-- What the others did before the program starts may be counted as theirs. -/
theorem Amid.before (hT : ∀ a b c, R a b → R b c → R a c) {p : Prog α} {fs fs0 fs' : FS} {tr : Trace} {o : Out α} (h0 : R fs0 fs)
    (h : Amid flt R M p fs tr fs' o) : Amid flt R M p fs0 tr fs' o := by
  cases h with
  | done h => exact .done (hT _ _ _ h0 h)
  | op h hm hs hr => exact .op (hT _ _ _ h0 h) hm hs hr

/-- So may what they did after it ended. -/
theorem Amid.after (hT : ∀ a b c, R a b → R b c → R a c) {p : Prog α} {fs fs' fs1 : FS} {tr : Trace} {o : Out α}
    (h : Amid flt R M p fs tr fs' o) (h0 : R fs' fs1) : Amid flt R M p fs tr fs1 o := by
  induction h with
  | done h => exact .done (hT _ _ _ h h0)
  | op h hm hs _ ih => exact .op h hm hs (ih h0)

/-- A relation that every step of the program keeps holds between start and end. -/
theorem Amid.keeps {R' : FS → FS → Prop} (hT : ∀ a b c, R' a b → R' b c → R' a c) {P : Act → Prop} {p : Prog α} {fs fs' : FS} {tr : Trace}
    {o : Out α} (h : Amid flt R M p fs tr fs' o) (hR : ∀ fs fs', R fs fs' → R' fs fs') (hp : p.All P)
    (hS : ∀ {fs fs1 : FS} {a : Act} {r : a.Resp}, P a → Step flt fs a r fs1 → R' fs fs1) : R' fs fs' := by
  induction h with
  | done h => exact hR _ _ h
  | op h _ hs _ ih => exact hT _ _ _ (hR _ _ h) (hT _ _ _ (hS hp.1 hs) (ih (hp.2 _)))

/-- A program of an interleaving runs amid the others. -/
theorem inter_amid {ps ps' : List (Prog α)} {fs fs' : FS} {l : List (Nat × Move)} {i : Nat} {o : Out α} (hT : ∀ a b c, R a b → R b c → R a c)
    (hR : ∀ fs, R fs fs) (P : Act → Prop) (hP : ∀ {fs fs1 : FS} {a : Act} {r : a.Resp}, P a → Step flt fs a r fs1 → R fs fs1)
    (hPw : ∀ {fs : FS} {p c : Bytes} {n : Nat}, P (.writeFile p c) → R fs (fs.set p (some (c.take n))))
    (h : Inter flt ps fs l ps' fs') : ps'[i]? = some (.done o) → (∀ (j : Nat) p, j ≠ i → ps[j]? = some p → p.All P) →
    ∀ p, ps[i]? = some p → p.All (fun a => ∀ q c, a ≠ .writeFile q c) →
    Amid flt R (fun now e => ∃ l1 l2 mid, l = l1 ++ (i, .call e) :: l2 ∧ Inter flt ps fs l1 mid now ∧
      Inter flt mid now ((i, .call e) :: l2) ps' fs') p fs (callsBy i l) fs' o := by
  induction h with
  | refl ps fs =>
    intro hd _ p hp _
    rw [hd] at hp; cases hp
    exact .done (hR _)
  | @call ps ps' j a k fs fs1 fs' r l hi hs hrest ih =>
    intro hd ho p hp hw
    have ho' : ∀ (j' : Nat) p, j' ≠ i → (ps.set j (k r))[j']? = some p → p.All P := by
      intro j' p hj hp
      rw [set_getElem? _ _ _ _ hi] at hp
      split at hp
      · cases hp; rename_i he; subst he; exact (ho _ _ hj hi).2 _
      · exact ho _ _ hj hp
    by_cases hj : j = i
    · subst hj
      rw [hi] at hp; cases hp
      have hc : callsBy j ((j, Move.call ⟨a, r⟩) :: l) = ⟨a, r⟩ :: callsBy j l := by simp [callsBy, Move.event?]
      rw [hc]
      refine .op (hR _) ⟨[], l, ps, rfl, .refl _ _, .call hi hs hrest⟩ hs ((ih hd ho' (k r) ?_ (hw.2 r)).mono (fun _ _ h => h) ?_)
      · rw [set_getElem? _ _ _ _ hi, if_pos rfl]
      · rintro now e ⟨l1, l2, mid, rfl, g1, g2⟩
        exact ⟨_ :: l1, l2, mid, rfl, .call hi hs g1, g2⟩
    · have hc : callsBy i ((j, Move.call ⟨a, r⟩) :: l) = callsBy i l := by simp [callsBy, hj]
      rw [hc]
      refine Amid.before hT (hP (ho j _ hj hi).1 hs) ((ih hd ho' p ?_ hw).mono (fun _ _ h => h) ?_)
      · rw [set_getElem? _ _ _ _ hi, if_neg hj]; exact hp
      · rintro now e ⟨l1, l2, mid, rfl, g1, g2⟩
        exact ⟨_ :: l1, l2, mid, rfl, .call hi hs g1, g2⟩
  | @part ps ps' j w c k fs fs' l hi n hrest ih =>
    intro hd ho p hp hw
    by_cases hj : j = i
    · subst hj
      rw [hi] at hp; cases hp
      exact absurd rfl (hw.1 w c)
    · have hc : callsBy i ((j, Move.part n) :: l) = callsBy i l := by simp [callsBy, hj]
      rw [hc]
      refine Amid.before hT (hPw (ho j _ hj hi).1) ((ih hd ho p hp hw).mono (fun _ _ h => h) ?_)
      rintro now e ⟨l1, l2, mid, rfl, g1, g2⟩
      exact ⟨_ :: l1, l2, mid, rfl, .part hi n g1, g2⟩

/-! ### what the clients do -/

/-- The call changes no file, or not this one, or removes it. Proof device: models no code. -/
def Act.RemovesAt (q : Bytes) (a : Act) : Prop := a.writes ≠ some q ∨ a = .remove q

theorem removesAt_step {q : Bytes} {a : Act} {r : a.Resp} {fs fs1 : FS} (h : a.RemovesAt q) (hs : Step flt fs a r fs1) :
    fs1 q = fs q ∨ fs1 q = none := by
  rcases h with h | rfl
  · exact .inl (step_frame hs h)
  · cases hs with
    | remove => exact .inr (FS.set_same ..)
    | removeMissing h => exact .inl rfl
    | removeFails => exact .inl rfl

theorem Spec.Client.run_of_prog {P : Act → Prop} {cl : Client} (h : cl.prog.All P) : cl.run.All P := by
  have key : ∀ {α β γ : Type} {p : Prog α} {f : α → β} {g : α → γ}, (p.bind fun x => .done (.ok (f x))).All P →
      (p.bind fun x => .done (.ok (g x))).All P := by
    intro α β γ p f g h
    induction p with
    | done o => cases o <;> trivial
    | op a k ih => exact ⟨h.1, fun r => ih r (h.2 r)⟩
  cases cl with
  | session ops => exact Prog.All.bind h fun _ => trivial
  | gc c list valid => exact key (f := fun _ => ([] : List (Except GoErr Reply))) h
  | listing c cid => exact key (f := fun _ => ([] : List (Except GoErr Reply))) h

/-- A client that stores nothing in a file at most removes it. -/
theorem Spec.Client.removesAt {cl : Client} {q : Bytes} (hn : cl.Plain) (h : cl.StoresNot q) : cl.run.All (Act.RemovesAt q) := by
  refine Client.run_of_prog ?_
  have rem : ∀ {o : Out Bytes} {a : Act}, (a.Plugins ∨ ∃ p, o = .ok p ∧ (a = .readFile p ∨ a = .remove p)) → a.RemovesAt q := by
    rintro o a (ha | ⟨p, -, rfl | rfl⟩)
    · exact .inl (by rw [ha.readonly]; simp)
    · exact .inl (by simp [Act.writes])
    · by_cases hp : p = q
      · subst hp; exact .inr rfl
      · exact .inl (by simp [Act.writes, hp])
  cases cl with
  | session ops =>
    refine session_all fun op ho => ?_
    by_cases hk : op.key = q
    · have ha := h op ho hk
      cases op with
      | add => cases ha
      | addNetwork => cases ha
      | del c l rt => exact (delNetworkList_acts.mono fun a h => rem h).bind fun _ => trivial
      | delNetwork c n rt => exact (delNetwork_acts.mono fun a h => rem h).bind fun _ => trivial
      | check c l rt => exact (checkNetworkList_acts.mono fun a h => rem (h.imp id fun ⟨p, x, y⟩ => ⟨p, x, .inl y⟩)).bind fun _ => trivial
      | checkNetwork c n rt => exact (checkNetwork_acts.mono fun a h => rem (h.imp id fun ⟨p, x, y⟩ => ⟨p, x, .inl y⟩)).bind fun _ => trivial
      | cachedResult c l rt => exact (getCachedResult_looks.mono fun a ⟨p, h, h'⟩ => rem (.inr ⟨p, h', .inl h⟩)).bind fun _ => trivial
      | cachedConfig c l rt => exact (getCachedConfig_looks.mono fun a ⟨p, h, h'⟩ => rem (.inr ⟨p, h', .inl h⟩)).bind fun _ => trivial
    · exact (ApiOp.call_only (hn op ho)).mono fun a ha => .inl (ha.writes fun he => hk he.symm)
  | gc c list valid =>
    refine (gcNetworkList_acts.mono fun a ha => ?_).attempt.bind fun _ => trivial
    rcases ha with ha | ⟨x, hx, p, hp, rfl⟩
    · exact .inl (by rw [ha]; simp)
    · by_cases hq : p = q
      · subst hq; exact .inr rfl
      · exact .inl (by simp [Act.writes, hq])
  | listing c cid => exact (getCachedAttachments_looks.mono fun a ha => .inl (by rw [ha.1]; simp)).attempt.bind fun _ => trivial

theorem Spec.Client.writes_not {cl : Client} {q : Bytes} (hn : cl.Plain) (h : cl.Avoids q) : cl.run.All fun a => a.writes ≠ some q :=
  Client.run_of_prog (Client.avoids_writes hn h)

/-! ### the listing -/

/-- Proof device: models no code. -/
def Kept (cid : Bytes) (n : Bytes) (a : Attachment) : Prop := cid = [] ∨ a.containerID = cid ∧ fileNameMatches cid n = true

theorem amid_loop (hR : ∀ fs, R fs fs) {c : CNIConfig} {cid : Bytes} {names : List Bytes} (hn : ∀ n ∈ names, IsComp n) :
    ∀ {fs fs' : FS} {tr : Trace} {o : Out (List Attachment)}, Amid false R M (attachmentLoop (resultsDir c) cid names) fs tr fs' o →
    ∃ src : List (Bytes × Attachment), o = .ok (src.map Prod.snd) ∧ (src.map Prod.fst).Sublist names ∧
      (∀ x ∈ src, (cid = [] ∨ x.2.containerID = cid) ∧ ∃ now p r, M now ⟨.readFile p, r⟩ ∧ attachmentIn c now x.1 = some x.2) ∧
      ∀ n ∈ names, (∀ fs fs', R fs fs' → fs' (childPath (resultsDir c) n) = fs (childPath (resultsDir c) n)) →
        ∀ a, attachmentIn c fs n = some a → Kept cid n a → (n, a) ∈ src := by
  induction names with
  | nil =>
    intro fs fs' tr o h
    obtain ⟨-, -, rfl⟩ := amid_done h
    exact ⟨[], rfl, .slnil, by simp, by simp⟩
  | cons n names ih =>
    intro fs fs' tr o h
    have hn' := fun x hx => hn x (List.mem_cons_of_mem _ hx)
    unfold attachmentLoop at h
    split at h
    · rename_i hm
      obtain ⟨src, rfl, h2, h3, h4⟩ := ih hn' h
      refine ⟨src, rfl, h2.cons _, h3, fun m hmem hq a ha hk => ?_⟩
      rcases List.mem_cons.1 hmem with rfl | hmem
      · rcases hk with hk | ⟨-, hk⟩
        · exact absurd hk hm.1
        · rw [hm.2] at hk; cases hk
      · exact h4 m hmem hq a ha hk
    · rename_i hm
      obtain ⟨r, fs1, fs2, tr', h1, hM, hs, rfl, hr⟩ := amid_op h
      obtain ⟨tr1, tr2, fs3, o1, rfl, g1, g2⟩ := amid_bind hR hr
      obtain ⟨src, rfl, h2, h3, h4⟩ := ih hn' g1
      cases hs with
      | readFileFails _ hf => cases hf
      | readFile =>
        obtain ⟨-, -, rfl⟩ := amid_done g2
        have he : attachmentOf cid (fs1 (joinPath (resultsDir c) n)) =
            (attachmentIn c fs1 n).filter fun a => cid = [] ∨ a.containerID = cid := by
          rw [joinPath_resultsDir (hn n (by simp)), attachmentOf_entryOf]; rfl
        cases hf : (attachmentIn c fs1 n).filter (fun a => decide (cid = [] ∨ a.containerID = cid)) with
        | none =>
          refine ⟨src, by rw [he, hf]; rfl, h2.cons _, h3, fun m hmem hq a ha hk => ?_⟩
          have ha1 : attachmentIn c fs1 m = some a := by
            unfold attachmentIn at ha ⊢; rw [hq _ _ h1]; exact ha
          rcases List.mem_cons.1 hmem with rfl | hmem
          · rw [ha1] at hf
            have : cid = [] ∨ a.containerID = cid := hk.imp id fun x => x.1
            simp [Option.filter, this] at hf
          · exact h4 m hmem hq a ha1 hk
        | some b =>
          obtain ⟨hb1, hb2⟩ := Option.filter_eq_some_iff.1 hf
          refine ⟨(n, b) :: src, by rw [he, hf]; rfl, h2.cons_cons _, ?_, fun m hmem hq a ha hk => ?_⟩
          · intro x hx
            rcases List.mem_cons.1 hx with rfl | hx
            · exact ⟨by simpa using hb2, _, _, _, hM, hb1⟩
            · exact h3 x hx
          · have ha1 : attachmentIn c fs1 m = some a := by
              unfold attachmentIn at ha ⊢; rw [hq _ _ h1]; exact ha
            rcases List.mem_cons.1 hmem with rfl | hmem
            · rw [hb1] at ha1; cases ha1; exact List.mem_cons_self ..
            · exact List.mem_cons_of_mem _ (h4 m hmem hq a ha1 hk)

theorem amid_listing (hR : ∀ fs, R fs fs) {c : CNIConfig} {cid : Bytes} {fs fs' : FS} {tr : Trace} {o : Out (List Attachment)}
    (h : Amid false R M (c.getCachedAttachments cid) fs tr fs' o) :
    ∃ src : List (Bytes × Attachment), o = .ok (src.map Prod.snd) ∧ (src.map Prod.fst).Pairwise (fun a b => Bytes.lt a b = true) ∧
      (∀ x ∈ src, IsComp x.1 ∧ (cid = [] ∨ x.2.containerID = cid) ∧ ∃ now p r, M now ⟨.readFile p, r⟩ ∧ attachmentIn c now x.1 = some x.2) ∧
      (∃ r, tr.head? = some ⟨.readDir (resultsDir c), r⟩) ∧
      ∀ n, IsComp n → (∀ fs fs', R fs fs' → fs' (childPath (resultsDir c) n) = fs (childPath (resultsDir c) n)) →
        ∀ a, attachmentIn c fs n = some a → Kept cid n a → (n, a) ∈ src := by
  rw [getCachedAttachments_eq] at h
  obtain ⟨r, fs1, fs2, tr', h1, hM, hs, rfl, hr⟩ := amid_op h
  have hat : ∀ n a, (∀ fs fs', R fs fs' → fs' (childPath (resultsDir c) n) = fs (childPath (resultsDir c) n)) →
      attachmentIn c fs n = some a → attachmentIn c fs1 n = some a := by
    intro n a hq ha
    unfold attachmentIn at ha ⊢; rw [hq _ _ h1]; exact ha
  have hfile : ∀ n a, IsComp n → attachmentIn c fs1 n = some a → fs1 (joinPath (resultsDir c) n) ≠ none := by
    intro n a hn ha h0
    rw [joinPath_resultsDir hn] at h0
    unfold attachmentIn at ha
    rw [h0] at ha; cases ha
  cases hs with
  | readDirFails _ _ hf => cases hf
  | readDirMissing _ hm =>
    obtain ⟨-, -, rfl⟩ := amid_done hr
    exact ⟨[], rfl, .nil, by simp, ⟨_, rfl⟩, fun n hn hq a ha _ => absurd (hm n hn) (hfile n a hn (hat n a hq ha))⟩
  | readDir _ ns hls =>
    obtain ⟨hnd, hcomp, hall⟩ := hls
    have hp := sortStrings_perm ns
    have hcs : ∀ n ∈ sortStrings ns, IsComp n := fun n hn => hcomp n (hp.mem_iff.1 hn)
    obtain ⟨src, rfl, g2, g3, g4⟩ := amid_loop hR hcs hr
    have hsort : (sortStrings ns).Pairwise (fun a b => Bytes.lt a b = true) := by
      have h1 := sortStrings_sorted ns
      have h2 : (sortStrings ns).Nodup := hp.nodup_iff.2 hnd
      refine (h1.and h2).imp ?_
      rintro a b ⟨hle, hne⟩
      rcases Bytes.lt_trichotomy a b with h | h | h
      · exact h
      · exact absurd h hne
      · simp [bytesLe, h] at hle
    refine ⟨src, rfl, hsort.sublist g2, fun x hx => ⟨?_, (g3 x hx).1, (g3 x hx).2⟩, ⟨_, rfl⟩, fun n hn hq a ha hk => ?_⟩
    · exact hcs _ (g2.subset (List.mem_map_of_mem hx))
    · exact g4 n (hp.mem_iff.2 (hall n hn (hfile n a hn (hat n a hq ha)))) hq a (hat n a hq ha) hk

/-! ### garbage collection -/

/-- The others do not change the file. Proof device: models no code. -/
def SameAt (q : Bytes) (fs fs' : FS) : Prop := fs' q = fs q

/-- The file is not changed, or removed. Proof device: models no code. -/
def LostAt (q : Bytes) (fs fs' : FS) : Prop := fs' q = fs q ∨ fs' q = none

theorem lostAt_trans {q : Bytes} (a b c : FS) (h1 : LostAt q a b) (h2 : LostAt q b c) : LostAt q a c := by
  rcases h2 with h2 | h2
  · exact h1.imp h2.trans h2.trans
  · exact .inr h2

/-- A program that touches one file, which the others leave alone, could have run alone. -/
theorem amid_only {q : Bytes} {p : Prog α} {fs fs' : FS} {tr : Trace} {o : Out α} (h : Amid flt (SameAt q) M p fs tr fs' o) :
    p.All (Act.Only q) → ∀ fsS : FS, fsS q = fs q → ∃ fsS', Runs flt p fsS tr fsS' o ∧ fsS' q = fs' q := by
  induction h with
  | done h => intro _ fsS he; exact ⟨fsS, .done _ _, he.trans h.symm⟩
  | op h _ hs _ ih =>
    intro hp fsS he
    obtain ⟨fs1, h1, h2, -⟩ := step_only hp.1 hs (he.trans h.symm)
    obtain ⟨fs2, g1, g2⟩ := ih (hp.2 _) fs1 h2
    exact ⟨fs2, .op h1 g1, g2⟩

/-- Either nobody else changed the file, or it is gone in the end. -/
theorem amid_split {q : Bytes} {p : Prog α} {fs fs' : FS} {tr : Trace} {o : Out α} (h : Amid flt (LostAt q) M p fs tr fs' o) :
    p.All (Act.RemovesAt q) → Amid flt (SameAt q) M p fs tr fs' o ∨ fs' q = none := by
  induction h with
  | done h => intro _; exact h.imp .done id
  | @op a k fs fs1 fs2 fs3 r tr o h hm hs hr ih =>
    intro hp
    rcases h with h | h
    · exact (ih (hp.2 _)).imp (.op h hm hs) id
    · have h2 : fs2 q = none := by
        rcases removesAt_step hp.1 hs with e | e
        · rw [e, h]
        · exact e
      refine .inr ((hr.keeps (R' := LostAt q) (P := Act.RemovesAt q) lostAt_trans (fun _ _ h => h) (hp.2 _)
        (fun ha hs => removesAt_step ha hs)).elim (fun e => by rw [e, h2]) id)

theorem amid_delLoop_errs (hR : ∀ fs, R fs fs) {c : CNIConfig} {list : NetConfList} {valid : Option (List GCAttachment)} {atts : List Attachment} :
    ∀ {errs es : List GoErr} {fs fs' : FS} {tr : Trace}, Amid flt R M (c.gcDelLoop list valid atts errs) fs tr fs' (.ok es) → errs <+: es := by
  induction atts with
  | nil => intro errs es fs fs' tr h; obtain ⟨-, -, h⟩ := amid_done h; cases h; exact List.prefix_refl _
  | cons x atts ih =>
    intro errs es fs fs' tr h
    unfold CNIConfig.gcDelLoop at h
    split at h
    · obtain ⟨tr0, tr2, fs1, o1, rfl, -, h2⟩ := amid_bind hR h
      cases o1 with
      | ok r =>
        have := ih h2
        cases r with
        | ok _ => exact this
        | error e => exact (List.prefix_append _ _).trans this
      | err g => obtain ⟨-, -, h⟩ := h2; cases h
      | panic => obtain ⟨-, -, h⟩ := h2; cases h
    · exact ih h

theorem amid_gcLoop_errs (hR : ∀ fs, R fs fs) {c : CNIConfig} {name ver : Bytes} {valid : Option (List GCAttachment)} {ps : List PluginConfig} :
    ∀ {errs es : List GoErr} {fs fs' : FS} {tr : Trace}, Amid flt R M (c.gcLoop name ver valid ps errs) fs tr fs' (.ok es) → errs <+: es := by
  induction ps with
  | nil => intro errs es fs fs' tr h; obtain ⟨-, -, h⟩ := amid_done h; cases h; exact List.prefix_refl _
  | cons p ps ih =>
    intro errs es fs fs' tr h
    unfold CNIConfig.gcLoop at h
    split at h
    · obtain ⟨tr0, tr2, fs1, o1, rfl, -, h2⟩ := amid_bind hR h
      cases o1 with
      | ok r =>
        have := ih h2
        cases r with
        | ok _ => exact this
        | error e => exact (List.prefix_append _ _).trans this
      | err g => obtain ⟨-, -, h⟩ := h2; cases h
      | panic => obtain ⟨-, -, h⟩ := h2; cases h
    · obtain ⟨-, -, h⟩ := amid_done h; cases h
    · obtain ⟨-, -, h⟩ := amid_done h; cases h

theorem gcDelLoop_removesAt {c : CNIConfig} {list : NetConfList} {valid : Option (List GCAttachment)} {atts : List Attachment}
    {errs : List GoErr} {q : Bytes} : (c.gcDelLoop list valid atts errs).All (Act.RemovesAt q) := by
  refine gcDelLoop_acts.mono fun a ha => ?_
  rcases ha with ha | ⟨x, -, -, p, -, rfl⟩
  · exact .inl (by rw [ha]; simp)
  · by_cases hq : p = q
    · subst hq; exact .inr rfl
    · exact .inl (by simp [Act.writes, hq])

/-- The DEL of a stale attachment that is on the list. -/
theorem amid_delLoop {c : CNIConfig} {list : NetConfList} {valid : Option (List GCAttachment)} {a : Attachment} {q : Bytes}
    (hst : isStale list.name valid a = true) (hq : c.cachePath list.name (rtOf a) = .ok q) {atts : List Attachment} :
    ∀ {errs es : List GoErr} {fs fs' : FS} {tr : Trace}, a ∈ atts →
    Amid false (SameAt q) M (c.gcDelLoop list valid atts errs) fs tr fs' (.ok es) →
    ∃ od tr1 trd tr2 fsS fsS', tr = tr1 ++ trd ++ tr2 ∧ (fsS q = fs q ∨ fsS q = none) ∧
      Runs false (c.delNetworkList list (rtOf a)) fsS trd fsS' od ∧ od ≠ .panic ∧ (es = [] → od = .ok ()) ∧
      (fs' q = fsS' q ∨ fs' q = none) := by
  have hR : ∀ fs : FS, SameAt q fs fs := fun _ => rfl
  induction atts with
  | nil => intro errs es fs fs' tr ha; cases ha
  | cons x atts ih =>
    intro errs es fs fs' tr ha h
    unfold CNIConfig.gcDelLoop at h
    split at h
    · rename_i hx
      obtain ⟨tr1, tr2, fs1, o1, rfl, h1, h2⟩ := amid_bind hR h
      obtain ⟨od, hd1, rfl⟩ := amid_attempt h1
      by_cases hxa : x = a
      · subst hxa
        have hacts : (c.delNetworkList list x.rt).All (Act.Only q) := delNetworkList_acts.mono fun b hb => by
          rcases hb with hb | ⟨p, hp, rfl | rfl⟩
          · exact hb.only _
          · have hp' : c.cachePath list.name (rtOf x) = .ok p := hp
            rw [hq] at hp'; cases hp'; exact rfl
          · have hp' : c.cachePath list.name (rtOf x) = .ok p := hp
            rw [hq] at hp'; cases hp'; exact rfl
        obtain ⟨fsS', g1, g2⟩ := amid_only hd1 hacts fs rfl
        have hrest : ∀ {errs : List GoErr}, Amid false (SameAt q) M (c.gcDelLoop list valid atts errs) fs1 tr2 fs' (.ok es) →
            fs' q = fsS' q ∨ fs' q = none := fun h => by
          have := h.keeps (R' := LostAt q) (P := Act.RemovesAt q) lostAt_trans (fun _ _ h => .inl h) gcDelLoop_removesAt
            (fun ha hs => removesAt_step ha hs)
          exact this.imp (fun e => e.trans g2.symm) id
        cases od with
        | ok u => exact ⟨.ok (), [], tr1, tr2, fs, fsS', rfl, .inl rfl, g1, by simp, fun _ => rfl, hrest h2⟩
        | err g =>
          refine ⟨.err g, [], tr1, tr2, fs, fsS', rfl, .inl rfl, g1, by simp, fun he => ?_, hrest h2⟩
          have := amid_delLoop_errs hR h2
          rw [he, List.prefix_nil] at this
          simp at this
        | panic => exact absurd h2.2.2 (by simp)
      · have ha' : a ∈ atts := (List.mem_cons.1 ha).resolve_left (fun e => hxa e.symm)
        have hfs1 : LostAt q fs fs1 := by
          refine hd1.keeps (P := Act.RemovesAt q) lostAt_trans (fun _ _ h => .inl h) (delNetworkList_acts.mono fun b hb => ?_)
            (fun ha hs => removesAt_step ha hs)
          rcases hb with hb | ⟨p, hp, rfl | rfl⟩
          · exact .inl (by rw [hb.readonly]; simp)
          · exact .inl (by simp [Act.writes])
          · by_cases hpq : p = q
            · subst hpq; exact .inr rfl
            · exact .inl (by simp [Act.writes, hpq])
        cases od with
        | panic => exact absurd h2.2.2 (by simp)
        | ok u =>
          obtain ⟨od, t1, td, t2, fsS, fsS', rfl, e1, e2, e3, e4, e5⟩ := ih ha' h2
          exact ⟨od, tr1 ++ t1, td, t2, fsS, fsS', by simp, lostAt_trans _ _ _ hfs1 e1, e2, e3, e4, e5⟩
        | err g =>
          obtain ⟨od, t1, td, t2, fsS, fsS', rfl, e1, e2, e3, e4, e5⟩ := ih ha' h2
          exact ⟨od, tr1 ++ t1, td, t2, fsS, fsS', by simp, lostAt_trans _ _ _ hfs1 e1, e2, e3, e4, e5⟩
    · rename_i hx
      refine ih ((List.mem_cons.1 ha).resolve_left ?_) h
      rintro rfl
      rw [hst] at hx; exact hx rfl

theorem named_plain {c : CNIConfig} {fs : FS} {n : Bytes} {a : Attachment} (hn : IsComp n) (ha : attachmentIn c fs n = some a) (hna : OwnFile n a) :
    PlainNames a.network (rtOf a) ∧ c.cachePath a.network (rtOf a) = .ok (childPath (resultsDir c) n) := by
  obtain ⟨-, h1, h3⟩ := attachmentIn_ok ha
  have hs : 47 ∉ n := hn.2.2.2
  rw [hna.own] at hs
  simp only [List.mem_append, not_or] at hs
  have hpl : PlainNames a.network (rtOf a) := ⟨⟨h1, hs.1.1.1.1⟩, ⟨hna.container, hs.1.1.2⟩, ⟨h3, hs.2⟩⟩
  have hc := cachePath_eq (c := c) hpl
  refine ⟨hpl, ?_⟩
  rw [← cachePath_own hn hna.own hc]
  exact hc

theorem amid_gc {c : CNIConfig} {list : NetConfList} {valid : Option (List GCAttachment)} (hd : list.disableGC = false) {n : Bytes}
    {a : Attachment} {fs fs' : FS} {tr : Trace} {o : Out Unit} (hn : IsComp n) (ha : attachmentIn c fs n = some a) (hna : OwnFile n a)
    (hst : Stale list.name valid a)
    (h : Amid false (SameAt (childPath (resultsDir c) n)) M (c.gcNetworkList list valid) fs tr fs' o) (ho : o ≠ .panic) :
    ∃ od tr1 trd tr2 fsS fsS', tr = tr1 ++ trd ++ tr2 ∧
      (fsS (childPath (resultsDir c) n) = fs (childPath (resultsDir c) n) ∨ fsS (childPath (resultsDir c) n) = none) ∧
      Runs false (c.delNetworkList list (rtOf a)) fsS trd fsS' od ∧ od ≠ .panic ∧ (o = .ok () → od = .ok ()) ∧
      (od = .ok () → fs' (childPath (resultsDir c) n) = none) := by
  obtain ⟨hpl, hq⟩ := named_plain hn ha hna
  rw [hst.1] at hpl hq
  have hR : ∀ fs : FS, SameAt (childPath (resultsDir c) n) fs fs := fun _ => rfl
  have hent : entryPath c list.name (rtOf a) = childPath (resultsDir c) n := by
    have := cachePath_eq (c := c) hpl
    rw [hq] at this; exact (Out.ok.inj this).symm
  unfold CNIConfig.gcNetworkList at h
  rw [hd, if_neg (by simp)] at h
  obtain ⟨tr0, tr', fs0, o0, rfl, h0, h⟩ := amid_bind hR h
  obtain ⟨ol, hl0, rfl⟩ := amid_attempt h0
  have hk0 : SameAt (childPath (resultsDir c) n) fs fs0 := by
    refine hl0.keeps (R' := SameAt (childPath (resultsDir c) n)) (P := fun a => a.writes = none)
      (fun _ _ _ h1 h2 => Eq.trans h2 h1) (fun _ _ h => h)
      (getCachedAttachments_looks.mono fun _ h => h.1) (fun ha hs => by rw [SameAt, step_readonly hs ha])
  obtain ⟨src, rfl, -, -, -, hall⟩ := amid_listing hR hl0
  have hmem : a ∈ src.map Prod.snd := List.mem_map_of_mem (hall n hn (fun _ _ h => h) a ha (.inl rfl))
  obtain ⟨tr1, tr2, fs1, o1, rfl, h1, hfin⟩ := amid_bind hR h
  cases o1 with
  | err g =>
    exfalso
    have hno : ∀ {atts : List Attachment} {errs : List GoErr} {fs fs' : FS} {tr : Trace},
        ¬ Amid false (SameAt (childPath (resultsDir c) n)) M (c.gcDelLoop list valid atts errs) fs tr fs' (.err g) := by
      intro atts
      induction atts with
      | nil => intro errs fs fs' tr h; cases (amid_done h).2.2
      | cons x atts ih =>
        intro errs fs fs' tr h
        unfold CNIConfig.gcDelLoop at h
        split at h
        · obtain ⟨t1, t2, f1, o1, rfl, h1, h2⟩ := amid_bind hR h
          obtain ⟨od, hd1, rfl⟩ := amid_attempt h1
          cases od with
          | ok u => exact ih h2
          | err e => exact ih h2
          | panic => cases h2.2.2
        · exact ih h
    exact hno h1
  | panic => exact absurd hfin.2.2 ho
  | ok es =>
    obtain ⟨od, t1, td, t2, fsS, fsS', rfl, e1, e2, e3, e4, e5⟩ := amid_delLoop ((isStale_iff ..).2 hst) hq hmem h1
    have hfs' : SameAt (childPath (resultsDir c) n) fs1 fs' ∧ (o = .ok () → es = []) := by
      have hj : ∀ {es : List GoErr}, joinErrs es = .ok () → es = [] := by
        intro es h; unfold joinErrs at h; split at h
        · assumption
        · cases h
      change Amid false _ M (if atLeast110 list.cniVersion = true then _ else _) fs1 tr2 fs' o at hfin
      split at hfin
      · obtain ⟨u1, u2, f2, o2, rfl, g1, g2⟩ := amid_bind hR hfin
        have hl : SameAt (childPath (resultsDir c) n) fs1 f2 :=
          g1.keeps (R' := SameAt (childPath (resultsDir c) n)) (P := Act.Plugins) (fun _ _ _ h1 h2 => Eq.trans h2 h1) (fun _ _ h => h) gcLoop_plugins
            (fun ha hs => by rw [SameAt, step_readonly hs ha.readonly])
        cases o2 with
        | ok es2 =>
          obtain ⟨-, g3, rfl⟩ := amid_done g2
          refine ⟨Eq.trans g3 hl, fun he => ?_⟩
          have := amid_gcLoop_errs hR g1
          rw [hj he] at this
          exact List.prefix_nil.1 this
        | err e => exact ⟨Eq.trans g2.2.1 hl, fun he => by rw [g2.2.2] at he; cases he⟩
        | panic => exact absurd g2.2.2 ho
      · obtain ⟨-, g3, rfl⟩ := amid_done hfin
        exact ⟨g3, hj⟩
    refine ⟨od, tr0 ++ t1, td, t2 ++ tr2, fsS, fsS', by simp, ?_, e2, e3, fun he => e4 (hfs'.2 he), fun he => ?_⟩
    · rw [← hk0]; exact e1
    · subst he
      have := c14_del_removes c list _ (attachmentIn_ok ha).1 hpl _ _ _ e2
      rw [hent] at this
      rw [hfs'.1]
      exact e5.elim (fun e => e.trans this) id

/-! ### C65 -/

theorem run_get {clients : List Client} {j : Nat} {p : Prog Ended} (h : (clients.map Client.run)[j]? = some p) :
    ∃ cl, clients[j]? = some cl ∧ cl ∈ clients ∧ p = cl.run := by
  rw [List.getElem?_map, Option.map_eq_some_iff] at h
  obtain ⟨cl, hc, rfl⟩ := h
  exact ⟨cl, hc, List.mem_of_getElem? hc, rfl⟩

/-- A listing of the attachments runs concurrently with other clients, in any interleaving. When it has ended it has returned
attachments in the order of their file names, each from a different file and each of which was in its file at some moment while
the listing was under way; and every attachment that was there from the start and that no other client concerns is among them. -/
theorem c65_listing (clients : List Client) (hn : ∀ cl ∈ clients, cl.Plain) (i : Nat) (c : CNIConfig) (cid : Bytes)
    (hi : clients[i]? = some (.listing c cid)) (fs fs' : FS) (l : List (Nat × Move)) (ps' : List (Prog Ended))
    (h : Inter false (clients.map Client.run) fs l ps' fs') (o : Out Ended) (hd : ps'[i]? = some (.done o)) :
    ∃ src : List (Bytes × Attachment), o = .ok (.listing (.ok (src.map Prod.snd))) ∧
      (src.map Prod.fst).Pairwise (fun a b => Bytes.lt a b = true) ∧
      (∀ n a, (n, a) ∈ src → IsComp n ∧ (cid = [] ∨ a.containerID = cid) ∧
        ∃ now, During false (clients.map Client.run) fs l ps' fs' i now ∧ attachmentIn c now n = some a) ∧
      ∀ n a, IsComp n → attachmentIn c fs n = some a → cid = [] ∨ a.containerID = cid ∧ OwnFile n a →
        (∀ (j : Nat) cl, j ≠ i → clients[j]? = some cl → cl.Avoids (childPath (resultsDir c) n)) → (n, a) ∈ src := by
  have hrun : (clients.map Client.run)[i]? = some (Client.listing c cid).run := by rw [List.getElem?_map, hi]; rfl
  have hamid := inter_amid (i := i) (o := o) (flt := false)
    (R := fun fs fs' => ∀ q, (∀ (j : Nat) cl, j ≠ i → clients[j]? = some cl → cl.Avoids q) → fs' q = fs q)
    (fun _ _ _ h1 h2 q hq => (h2 q hq).trans (h1 q hq)) (fun _ _ _ => rfl)
    (fun a => ∀ q, (∀ (j : Nat) cl, j ≠ i → clients[j]? = some cl → cl.Avoids q) → a.writes ≠ some q)
    (fun ha hs q hq => step_frame hs (ha q hq)) (fun ha q hq => FS.set_other _ _ fun e => ha q hq (by rw [e]; rfl)) h hd
    (fun j p hj hp => by
      obtain ⟨cl, hc, hm, rfl⟩ := run_get hp
      have : ∀ (p : Prog Ended), (∀ q, (∀ (j : Nat) cl, j ≠ i → clients[j]? = some cl → cl.Avoids q) → p.All fun a => a.writes ≠ some q) →
          p.All fun a => ∀ q, (∀ (j : Nat) cl, j ≠ i → clients[j]? = some cl → cl.Avoids q) → a.writes ≠ some q := by
        intro p
        induction p with
        | done => intro _; trivial
        | op a k ih => exact fun h => ⟨fun q hq => (h q hq).1, fun r => ih r fun q hq => (h q hq).2 r⟩
      exact this _ fun q hq => Client.writes_not (hn cl hm) (hq j cl hj hc))
    _ hrun (Client.run_of_prog (cl := .listing c cid) ((getCachedAttachments_looks.mono fun a ha => by
      rintro q b rfl; cases ha.1).attempt.bind fun _ => trivial))
  obtain ⟨tr1, tr2, fs1, o1, htr, h1, h2⟩ := amid_bind (fun _ _ _ => rfl) hamid
  obtain ⟨ol, hl1, rfl⟩ := amid_attempt h1
  obtain ⟨src, rfl, g2, g3, ⟨r0, g4⟩, g5⟩ := amid_listing (fun _ _ _ => rfl) hl1
  obtain ⟨-, -, rfl⟩ := amid_done h2
  refine ⟨src, rfl, g2, fun n a hx => ?_, fun n a hc ha hk hav => ?_⟩
  · obtain ⟨e1, e2, now, p, r, ⟨l1, l2, mid, rfl, k1, k2⟩, e4⟩ := g3 _ hx
    refine ⟨e1, e2, now, ⟨l1, _, mid, rfl, k1, k2, ?_, ⟨_, List.mem_cons_self .., rfl⟩⟩, e4⟩
    refine Classical.byContradiction fun hno => ?_
    have hnil : callsBy i l1 = [] := by
      unfold callsBy
      rw [List.filter_eq_nil_iff.2 (fun x hx => by simpa using fun e => hno ⟨x, hx, e⟩)]
      rfl
    have hhead : (callsBy i (l1 ++ (i, Move.call ⟨.readFile p, r⟩) :: l2)).head? = some ⟨.readFile p, r⟩ := by
      have : callsBy i (l1 ++ (i, Move.call ⟨.readFile p, r⟩) :: l2) = callsBy i l1 ++ callsBy i ((i, Move.call ⟨.readFile p, r⟩) :: l2) := by
        simp [callsBy]
      rw [this, hnil]
      simp [callsBy, Move.event?]
    rw [htr] at hhead
    cases tr1 with
    | nil => cases g4
    | cons e tr1 =>
      simp only [List.head?_cons, List.cons_append, Option.some.injEq] at g4 hhead
      rw [g4] at hhead
      cases hhead
  · refine g5 n hc (fun _ _ h => h _ hav) a ha (hk.imp id fun ⟨h1, h2⟩ => ⟨h1, ?_⟩)
    obtain ⟨-, k1, k2⟩ := attachmentIn_ok ha
    rw [h2.own, ← h1]
    exact fileNameMatches_of k1 h2.network k2

theorem gc_amid {clients : List Client} {i : Nat} {c : CNIConfig} {list : NetConfList} {valid : Option (List GCAttachment)}
    (hi : clients[i]? = some (.gc c list valid)) {R : FS → FS → Prop} {P : Act → Prop} (hT : ∀ a b c, R a b → R b c → R a c) (hR : ∀ fs, R fs fs)
    (hP : ∀ {fs fs1 : FS} {a : Act} {r : a.Resp}, P a → Step false fs a r fs1 → R fs fs1)
    (hPw : ∀ {fs : FS} {p c : Bytes} {n : Nat}, P (.writeFile p c) → R fs (fs.set p (some (c.take n))))
    {fs fs' : FS} {l : List (Nat × Move)} {ps' : List (Prog Ended)} (h : Inter false (clients.map Client.run) fs l ps' fs')
    (ho : ∀ (j : Nat) cl, j ≠ i → clients[j]? = some cl → cl.run.All P)
    {r : Except GoErr Unit} (hd : ps'[i]? = some (.done (.ok (.gc r)))) :
    ∃ og M, Amid false R M (c.gcNetworkList list valid) fs (callsBy i l) fs' og ∧ og ≠ .panic ∧ (r = .ok () → og = .ok ()) := by
  have hrun : (clients.map Client.run)[i]? = some (Client.gc c list valid).run := by rw [List.getElem?_map, hi]; rfl
  have hamid := inter_amid (i := i) hT hR P hP hPw h hd (fun j p hj hp => by
      obtain ⟨cl, hc, hm, rfl⟩ := run_get hp
      exact ho j cl hj hc)
    _ hrun (Client.run_of_prog (cl := .gc c list valid) ((gcNetworkList_acts.mono fun a ha => by
      rintro q b rfl
      rcases ha with ha | ⟨_, _, _, _, ha⟩ <;> cases ha).attempt.bind fun _ => trivial))
  obtain ⟨tr1, tr2, fs1, o1, htr, h1, h2⟩ := amid_bind hR hamid
  obtain ⟨og, hg, rfl⟩ := amid_attempt h1
  cases og with
  | panic => cases h2.2.2
  | ok u =>
    obtain ⟨rfl, h3, h4⟩ := amid_done h2
    rw [htr, List.append_nil]
    exact ⟨.ok (), _, hg.after hT h3, by simp, fun _ => rfl⟩
  | err g =>
    obtain ⟨rfl, h3, h4⟩ := amid_done h2
    cases h4
    rw [htr, List.append_nil]
    exact ⟨.err g, _, hg.after hT h3, by simp, fun h => by cases h⟩

/-- A garbage collection runs concurrently with other clients, in any interleaving. Let an attachment that is in the cache at the
start be stale for this garbage collection, and concern no other client. When the garbage collection has ended, its calls
contain those of a complete DEL of this attachment, from the entry of the attachment (or none, if an entry with other contents
than its name says made the garbage collection remove it before); if that DEL succeeded, the entry is gone; and it did if the garbage collection succeeded. -/
theorem c65_gc (clients : List Client) (hn : ∀ cl ∈ clients, cl.Plain) (i : Nat) (c : CNIConfig) (list : NetConfList)
    (valid : Option (List GCAttachment)) (hi : clients[i]? = some (.gc c list valid)) (hg : list.disableGC = false) (fs fs' : FS)
    (n : Bytes) (a : Attachment) (hc : IsComp n) (ha : attachmentIn c fs n = some a) (hna : OwnFile n a) (hst : Stale list.name valid a)
    (hav : ∀ (j : Nat) cl, j ≠ i → clients[j]? = some cl → cl.Avoids (childPath (resultsDir c) n))
    (l : List (Nat × Move)) (ps' : List (Prog Ended)) (h : Inter false (clients.map Client.run) fs l ps' fs')
    (r : Except GoErr Unit) (hd : ps'[i]? = some (.done (.ok (.gc r)))) :
    ∃ od tr1 trd tr2 fsS fsS', callsBy i l = tr1 ++ trd ++ tr2 ∧
      (fsS (childPath (resultsDir c) n) = fs (childPath (resultsDir c) n) ∨ fsS (childPath (resultsDir c) n) = none) ∧
      Runs false (c.delNetworkList list (rtOf a)) fsS trd fsS' od ∧ (r = .ok () → od = .ok ()) ∧
      (od = .ok () → fs' (childPath (resultsDir c) n) = none) := by
  obtain ⟨og, M, h1, h2, h3⟩ := gc_amid hi (R := SameAt (childPath (resultsDir c) n)) (P := fun a => a.writes ≠ some (childPath (resultsDir c) n))
    (fun _ _ _ h1 h2 => Eq.trans h2 h1) (fun _ => rfl) (fun ha hs => step_frame hs ha)
    (fun ha => FS.set_other _ _ fun e => ha (by rw [e]; rfl)) h
    (fun j cl hj hc => Client.writes_not (hn cl (List.mem_of_getElem? hc)) (hav j cl hj hc)) hd
  obtain ⟨od, tr1, trd, tr2, fsS, fsS', e1, e2, e3, -, e5, e6⟩ := amid_gc hg hc ha hna hst h1 h2
  exact ⟨od, tr1, trd, tr2, fsS, fsS', e1, e2, e3, fun hr => e5 (h3 hr), e6⟩

/-- When other clients may remove the entry of the stale attachment too (other garbage collections, a DEL), but none stores it
again, it is gone once the garbage collection has succeeded. -/
theorem c65_gc_removes (clients : List Client) (hn : ∀ cl ∈ clients, cl.Plain) (i : Nat) (c : CNIConfig) (list : NetConfList)
    (valid : Option (List GCAttachment)) (hi : clients[i]? = some (.gc c list valid)) (hg : list.disableGC = false) (fs fs' : FS)
    (n : Bytes) (a : Attachment) (hc : IsComp n) (ha : attachmentIn c fs n = some a) (hna : OwnFile n a) (hst : Stale list.name valid a)
    (hav : ∀ (j : Nat) cl, j ≠ i → clients[j]? = some cl → cl.StoresNot (childPath (resultsDir c) n))
    (l : List (Nat × Move)) (ps' : List (Prog Ended)) (h : Inter false (clients.map Client.run) fs l ps' fs')
    (hd : ps'[i]? = some (.done (.ok (.gc (.ok ()))))) : fs' (childPath (resultsDir c) n) = none := by
  obtain ⟨og, M, h1, h2, h3⟩ := gc_amid hi (R := LostAt (childPath (resultsDir c) n)) (P := Act.RemovesAt (childPath (resultsDir c) n))
    lostAt_trans (fun _ => .inl rfl) (fun ha hs => removesAt_step ha hs)
    (fun ha => by
      rcases ha with ha | ha
      · exact .inl (FS.set_other _ _ fun e => ha (by rw [e]; rfl))
      · cases ha) h
    (fun j cl hj hc => Client.removesAt (hn cl (List.mem_of_getElem? hc)) (hav j cl hj hc)) hd
  have hog := h3 rfl
  subst hog
  rcases amid_split h1 (gcNetworkList_acts.mono fun a ha => by
      rcases ha with ha | ⟨x, hx, p, hp, rfl⟩
      · exact .inl (by rw [ha]; simp)
      · by_cases hq : p = childPath (resultsDir c) n
        · subst hq; exact .inr rfl
        · exact .inl (by simp [Act.writes, hq])) with h1 | h1
  · obtain ⟨od, tr1, trd, tr2, fsS, fsS', -, -, -, -, e5, e6⟩ := amid_gc hg hc ha hna hst h1 h2
    exact e6 (e5 rfl)
  · exact h1

/-! ### concrete cases -/

namespace Example

theorem inter_afterDir {α β : Type} {find : Bytes → Except GoErr Bytes} {exec : Bytes → Bytes → PArgs → Except GoErr Bytes} {ps : List (Prog α)}
    {fs : FS} {d : Bytes} {names : List Bytes} {sch : List (Nat × Option Nat)} (i : Nat) (hl : FS.Lists fs d names) (f : List (Prog α) → FS → β) {b : β}
    (h : ((ps[i]?.bind fun p => p.afterDir d names).bind fun p => Prog.interInterp find exec sch (ps.set i p) fs).map
      (fun x => f x.2.1 x.2.2) = some b) :
    ∃ l ps' fs', Inter false ps fs l ps' fs' ∧ f ps' fs' = b := by
  obtain ⟨x, hx, rfl⟩ := Option.map_eq_some_iff.1 h
  obtain ⟨q, hq0, hx⟩ := Option.bind_eq_some_iff.1 hx
  obtain ⟨p, hp, hq⟩ := Option.bind_eq_some_iff.1 hq0
  cases p with
  | done o => cases hq
  | op a k =>
    cases a with
    | readDir d' =>
      simp only [Prog.afterDir] at hq
      split at hq
      · rename_i hd
        subst hd
        cases hq
        exact ⟨_, _, _, .call hp (.readDir _ _ names hl) (Prog.interInterp_inter hx), rfl⟩
      · cases hq
    | _ => cases hq

/-- A listing, a garbage collection that has no valid attachments, and an ADD of another attachment. Test data; models no code. -/
def amidst : List Client := [.listing cfg [], .gc cfg list11 none, .session [.add cfg list rt2]]

/-- What a listing ended with. Observation in tests; models no code. -/
def listed : Out Ended → List (Bytes × Bytes)
  | .ok (.listing (.ok l)) => l.map fun a => (a.network, a.containerID)
  | _ => []

/-- Whether a garbage collection succeeded. Observation in tests; models no code. -/
def collected : Out Ended → Bool
  | .ok (.gc (.ok _)) => true
  | _ => false

/-- The hypotheses on the clients, for the listing: the clients other than the garbage collection do not concern the entry. -/
example : (∀ cl ∈ amidst, cl.Plain) ∧ (Client.session [.add cfg list rt2]).Avoids key ∧
    (∀ cl ∈ amidst, cl.StoresNot key) ∧ childPath (resultsDir cfg) b!"net-c1-eth0" = key := by
  have h2 : PlainNames list.name rt2 := ⟨by decide +kernel, by decide +kernel, by decide +kernel⟩
  have hk : (ApiOp.add cfg list rt2).key ≠ key := by decide +kernel
  refine ⟨?_, ?_, ?_, by decide +kernel⟩
  · simp only [amidst, List.mem_cons, List.not_mem_nil, or_false]
    rintro cl (rfl | rfl | rfl)
    · trivial
    · trivial
    · simp only [Client.Plain, List.mem_cons, List.not_mem_nil, or_false]
      rintro op rfl; exact h2
  · simp only [Client.Avoids, List.mem_cons, List.not_mem_nil, or_false]
    rintro op rfl; exact hk
  · simp only [amidst, List.mem_cons, List.not_mem_nil, or_false]
    rintro cl (rfl | rfl | rfl)
    · trivial
    · trivial
    · simp only [Client.StoresNot, List.mem_cons, List.not_mem_nil, or_false]
      rintro op rfl he; exact absurd he hk

/-- The entry is in the file of its own name. -/
example : ∃ a, attachmentIn cfg oneFile b!"net-c1-eth0" = some a ∧ OwnFile b!"net-c1-eth0" a ∧ Stale list11.name none a := by
  have hc : (attachmentIn cfg oneFile b!"net-c1-eth0").map (fun a => (a.network, a.containerID, a.ifName)) = some (b!"net", b!"c1", b!"eth0") := by
    decide +kernel
  cases ha : attachmentIn cfg oneFile b!"net-c1-eth0" with
  | none => rw [ha] at hc; cases hc
  | some a =>
    rw [ha] at hc
    simp only [Option.map_some, Option.some.injEq, Prod.mk.injEq] at hc
    obtain ⟨h1, h2, h3⟩ := hc
    refine ⟨a, rfl, ⟨?_, ?_, ?_⟩, ?_, fun l hl => by cases hl⟩
    · rw [h1, h2, h3]; decide +kernel
    · rw [h2]; decide
    · rw [h1]; decide
    · rw [h1]; decide +kernel

/-- An interleaving of the listing with the ADD of another attachment: the listing returns the attachment that was there. -/
example : ∃ l ps' fs', Inter false ([Client.listing cfg [], .session [.add cfg list rt2]].map Client.run) oneFile l ps' fs' ∧
    (ps'.map fun p => p.outcome?.map listed) = [some [(b!"net", b!"c1")], some []] :=
  inter_afterDir (find := find) (exec := good) (sch := [(1, none), (1, none), (1, none), (1, none), (1, none), (1, some 5), (0, none), (1, none)]) 0
    (Example.lists _) (fun ps' _ => ps'.map fun p => p.outcome?.map listed) (by decide +kernel)

/-- The garbage collection has listed the directory when the ADD stores the other attachment; it deletes the stale one and leaves
the other. -/
example : ∃ l ps' fs', Inter false ([Client.gc cfg list11 none, .session [.add cfg list rt2]].map Client.run) oneFile l ps' fs' ∧
    ((fs' key).isSome, (fs' b!"/cache/results/net-other-eth0").isSome, ps'.map fun p => p.outcome?.map collected) =
      (false, true, [some true, some false]) :=
  inter_afterDir (find := find) (exec := good) (sch := [(1, none), (1, none), (1, none), (1, none), (1, none), (1, none), (0, none), (0, none), (0, none), (0, none), (0, none), (0, none), (0, none), (0, none), (0, none), (0, none), (0, none)]) 0
    (Example.lists _) (fun ps' fs' => ((fs' key).isSome, (fs' b!"/cache/results/net-other-eth0").isSome, ps'.map fun p => p.outcome?.map collected))
    (by decide +kernel)

end Example

end Verif
