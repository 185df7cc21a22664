/- A successful garbage collection leaves exactly the attachments that are not stale. -/
import Verif.Props.Gc
import Verif.Props.Panic

namespace Verif

open Spec

variable {flt : Bool}

theorem gcLoop_errs {c : CNIConfig} {name ver : Bytes} {valid : Option (List GCAttachment)} {ps : List PluginConfig} :
    ∀ {errs es : List GoErr} {fs fs' : FS} {tr : Trace}, Runs flt (c.gcLoop name ver valid ps errs) fs tr fs' (.ok es) → errs <+: es := by
  induction ps with
  | nil => intro errs es fs fs' tr h; obtain ⟨-, -, h⟩ := runs_done.1 h; cases h; exact List.prefix_refl _
  | cons p ps ih =>
    intro errs es fs fs' tr h
    unfold CNIConfig.gcLoop at h
    split at h
    · obtain ⟨tr0, tr2, fs1, o1, rfl, -, h2⟩ := runs_bind.1 h
      cases o1 with
      | ok r =>
        have := ih h2
        cases r with
        | ok _ => exact this
        | error e => exact (List.prefix_append _ _).trans this
      | err g => obtain ⟨-, -, h⟩ := h2; cases h
      | panic => obtain ⟨-, -, h⟩ := h2; cases h
    · obtain ⟨-, -, h⟩ := runs_done.1 h; cases h
    · obtain ⟨-, -, h⟩ := runs_done.1 h; cases h

/-- After DELs that all succeeded no entry is left at the paths of the attachments. -/
theorem dels_removed {c : CNIConfig} {list : NetConfList} {l : List Attachment} {os : List (Out Unit)} {fs fs' : FS} {tr : Trace}
    (h : Dels false c list l fs tr fs' os) (hok : ∀ a ∈ l, (rtOf a).OK) (hpl : ∀ a ∈ l, PlainNames list.name (rtOf a))
    (hos : ∀ x ∈ os, x = .ok ()) : ∀ a ∈ l, fs' (entryPath c list.name (rtOf a)) = none := by
  induction h with
  | nil => simp
  | @cons a l fs fs1 fs2 tr1 tr2 o os h hl ih =>
    intro b hb
    rw [List.mem_cons] at hb
    rcases hb with rfl | hb
    · have ho := hos o (by simp)
      subst ho
      have h1 := c14_del_removes c list _ (hok b (by simp)) (hpl b (by simp)) _ _ _ h
      refine Classical.byContradiction fun hne => hne ?_
      refine (dels_changes hl (fun x hx => hok x (by simp [hx])) _ ?_).1
      rw [h1]; exact hne
    · exact ih (fun x hx => hok x (by simp [hx])) (fun x hx => hpl x (by simp [hx])) (fun x hx => hos x (by simp [hx])) b hb

/-- C23: when a garbage collection that can list the cache succeeds, no stale attachment is left in the cache. (The entries are in
the files of their own names and name a container, as all that ADD stores.) -/
theorem c23_complete (c : CNIConfig) (list : NetConfList) (valid : Option (List GCAttachment)) (hd : list.disableGC = false)
    (fs fs' : FS) (tr : Trace) (h : Runs false (c.gcNetworkList list valid) fs tr fs' (.ok ())) (hw : OwnNamed c fs)
    (hid : ∀ a, InCache c fs a → a.containerID ≠ []) : ∀ a, InCache c fs' a → ¬ Stale list.name valid a := by
  rintro a ⟨n, hn, ha⟩ hst
  have ha0 : attachmentIn c fs n = some a := by
    by_cases he : fs' (childPath (resultsDir c) n) = fs (childPath (resultsDir c) n)
    · unfold attachmentIn at ha ⊢; rw [he] at ha; exact ha
    · obtain ⟨h1, -⟩ := c22_files c list valid fs fs' tr _ h hw _ he
      unfold attachmentIn at ha; rw [h1] at ha; cases ha
  obtain ⟨tr0, o0, h0, hx⟩ := gcNetworkList_runs hd h
  obtain ⟨-, -, names, l0, rfl, hl0⟩ := c21_all c fs fs tr0 o0 h0
  rcases hx with ⟨hno, -⟩ | ⟨atts, l, trd, os, fs1, he, hdl, hx⟩
  · exact hno l0 rfl
  cases he
  rcases hx with ⟨-, -, -, -, ho⟩ | ⟨rfl, hnp, trg, es, rfl, hwr, hx⟩
  · cases ho
  have hes : es = [] ∧ fs' = fs1 := by
    rcases hx with ⟨-, -, rfl, ho⟩ | ⟨-, o1, hg, ho⟩
    · refine ⟨?_, rfl⟩
      unfold joinErrs at ho
      split at ho
      · assumption
      · cases ho
    · cases o1 with
      | ok es' =>
        have hp := gcLoop_errs hg
        have : es' = [] := by
          change Out.ok () = joinErrs es' at ho
          unfold joinErrs at ho
          split at ho
          · assumption
          · cases ho
        rw [this] at hp
        exact ⟨List.prefix_nil.1 hp, (gcLoop_looks.mono fun _ h => h.1).readonly hg⟩
      | err g => cases ho
      | panic => cases ho
  obtain ⟨rfl, rfl⟩ := hes
  have hos : ∀ x ∈ os, x = .ok () := by
    have := hwr.nil_iff.1 rfl
    rw [List.filterMap_eq_nil_iff] at this
    intro x hx
    have h1 := this x hx
    have h2 := hnp x hx
    cases x with
    | ok u => rfl
    | err g => simp [outFailure] at h1
    | panic => exact absurd rfl h2
  have hin : ∀ b ∈ l0.filter (isStale list.name valid), InCache c fs b ∧ Stale list.name valid b := by
    intro b hb
    rw [List.mem_filter, isStale_iff] at hb
    obtain ⟨i, hi⟩ := List.mem_iff_getElem?.1 hb.1
    have : (names.map (attachmentIn c fs))[i]? = some (some b) := by rw [hl0.same, List.getElem?_map, hi]; rfl
    rw [List.getElem?_map, Option.map_eq_some_iff] at this
    obtain ⟨m, hm, hb2⟩ := this
    exact ⟨⟨m, ((hl0.mem m).1 (List.mem_of_getElem? hm)).1, hb2⟩, hb.2⟩
  have plain : ∀ {m b}, IsComp m → attachmentIn c fs m = some b → b.network = list.name → PlainNames list.name (rtOf b) := by
    intro m b hm hb hnet
    have ho := hw m b hm hb
    have hs : 47 ∉ m := hm.2.2.2
    rw [ho, hnet] at hs
    simp only [List.mem_append, not_or] at hs
    have hnn : b.network ≠ [] ∧ b.ifName ≠ [] := by
      unfold attachmentIn at hb
      rw [Option.bind_eq_some_iff] at hb
      obtain ⟨x, -, hb⟩ := hb
      unfold entryOf at hb
      rw [Option.bind_eq_some_iff] at hb
      obtain ⟨i, -, hb⟩ := hb
      split at hb
      · rename_i hc
        cases hb
        exact ⟨hc.2.2, hc.2.1⟩
      · cases hb
    exact ⟨⟨hnet ▸ hnn.1, hs.1.1.1.1⟩, ⟨hid b ⟨m, hm, hb⟩, hs.1.1.2⟩, ⟨hnn.2, hs.2⟩⟩
  have hmem : a ∈ l0.filter (isStale list.name valid) := by
    rw [List.mem_filter, isStale_iff]
    refine ⟨?_, hst⟩
    have hnm : n ∈ names := (hl0.mem n).2 ⟨hn, a, ha0, by trivial⟩
    have : some a ∈ l0.map some := by rw [← hl0.same]; exact List.mem_map.2 ⟨n, hnm, ha0⟩
    obtain ⟨b, hb, he⟩ := List.mem_map.1 this
    cases he; exact hb
  have hgone := dels_removed hdl (fun b hb => by
      obtain ⟨⟨m, -, hm⟩, -⟩ := hin b hb
      exact (attachmentIn_ok hm).1)
    (fun b hb => by
      obtain ⟨⟨m, hm, hb2⟩, hs⟩ := hin b hb
      exact plain hm hb2 hs.1) hos a hmem
  have hpath : entryPath c list.name (rtOf a) = childPath (resultsDir c) n := by
    have := cachePath_own hn (hw n a hn ha0) (hst.1 ▸ cachePath_eq (c := c) (plain hn ha0 hst.1))
    rw [hst.1] at this
    exact this
  rw [hpath] at hgone
  unfold attachmentIn at ha
  rw [hgone] at ha
  cases ha

/-- A cache populated through the API meets the hypothesis on container IDs. -/
theorem c23_history (c : CNIConfig) (h : List (ApiOp × Out Reply)) (fs fs' : FS) (hh : History h fs fs') (hp : ∀ x ∈ h, x.1.Proper)
    (hl : ∀ x ∈ h, ∀ c l rt, x.1 = .add c l rt → l.plugins ≠ [])
    (h0 : ∀ a, InCache c fs a → a.containerID ≠ []) : ∀ a, InCache c fs' a → a.containerID ≠ [] := by
  suffices hs : ∀ n a, IsComp n → attachmentIn c fs' n = some a → a.containerID ≠ [] by
    rintro a ⟨n, hn, ha⟩; exact hs n a hn ha
  replace h0 : ∀ n a, IsComp n → attachmentIn c fs n = some a → a.containerID ≠ [] := fun n a hn ha => h0 a ⟨n, hn, ha⟩
  induction hh with
  | nil => exact h0
  | cons h1 h2 ih =>
    refine ih (fun x hx => hp x (by simp [hx])) (fun x hx => hl x (by simp [hx])) ?_
    refine named_step (P := fun _ a => a.containerID ≠ []) (hp _ (List.mem_cons_self ..))
      (hl _ (List.mem_cons_self ..)) (fun a had v1 v2 hpl e1 e2 e3 => ?_) h1 h0
    rw [e2]
    exact hpl.cid.1

/-- A history that starts with an empty cache. -/
example (c : CNIConfig) : ∀ a, InCache c Example.noFiles a → a.containerID ≠ [] := by
  rintro a ⟨n, -, h⟩; cases h

/-- The call that lists the results directory fails, for another reason than the directory not existing. -/
def unlistable (c : CNIConfig) : Event := ⟨.readDir (resultsDir c), (.error false : Except Bool (List Bytes))⟩

theorem getCachedAttachments_eq (c : CNIConfig) (cid : Bytes) :
    c.getCachedAttachments cid = .op (.readDir (resultsDir c)) fun r =>
      match (r : Except Bool (List Bytes)) with
      | .error true => .done (.ok [])
      | .error false => .done (.err (fsErr b!"readdir"))
      | .ok names => attachmentLoop (resultsDir c) cid (sortStrings names) := by
  unfold CNIConfig.getCachedAttachments
  rw [resultsDir_eq]
  refine congrArg (Prog.op (Act.readDir (resultsDir c))) (funext fun r => ?_)
  match (r : Except Bool (List Bytes)) with
  | .error true => rfl
  | .error false => rfl
  | .ok _ => rfl

/-- A listing fails exactly if the results directory exists and cannot be read; files that cannot be read are skipped. -/
theorem c21_unreadable (c : CNIConfig) (cid : Bytes) (fs fs' : FS) (tr : Trace) (o : Out (List Attachment))
    (h : Runs flt (c.getCachedAttachments cid) fs tr fs' o) :
    (∃ g, o = .err g) ↔ tr.head? = some (unlistable c) := by
  rw [getCachedAttachments_eq] at h
  obtain ⟨r, fs1, tr', hs, rfl, hr⟩ := runs_op.1 h
  have hloop : ∀ {names : List Bytes} {tr : Trace} {fs fs' : FS} {o : Out (List Attachment)},
      Runs flt (attachmentLoop (resultsDir c) cid names) fs tr fs' o → ¬ ∃ g, o = .err g := by
    intro names
    induction names with
    | nil =>
      rintro tr fs fs' o h ⟨g, rfl⟩
      cases (runs_done.1 h).2.2
    | cons n names ih =>
      rintro tr fs fs' o h ⟨g, rfl⟩
      unfold attachmentLoop at h
      split at h
      · exact ih h ⟨g, rfl⟩
      · obtain ⟨r, fs1, tr', hs, rfl, hr⟩ := runs_op.1 h
        obtain ⟨tr1, tr2, fs2, o1, rfl, h1, h2⟩ := runs_bind.1 hr
        cases o1 with
        | ok l => cases (runs_done.1 h2).2.2
        | err e => exact ih h1 ⟨_, rfl⟩
        | panic => cases h2.2.2
  cases r with
  | error b =>
    cases b with
    | true =>
      obtain ⟨rfl, -, rfl⟩ := runs_done.1 hr
      constructor
      · rintro ⟨g, h⟩; cases h
      · intro h
        simp only [List.head?_cons, Option.some.injEq, unlistable] at h
        cases h
    | false =>
      obtain ⟨rfl, -, rfl⟩ := runs_done.1 hr
      exact ⟨fun _ => rfl, fun _ => ⟨_, rfl⟩⟩
  | ok names =>
    constructor
    · intro h; exact absurd h (hloop hr)
    · intro h
      simp only [List.head?_cons, Option.some.injEq, unlistable] at h
      cases h

/-- When the cache cannot be listed, GC does nothing at all and reports success. -/
theorem c23_unlisted (c : CNIConfig) (list : NetConfList) (valid : Option (List GCAttachment)) (fs fs' : FS) (tr : Trace) (o : Out Unit)
    (h : Runs flt (c.gcNetworkList list valid) fs tr fs' o) (hf : tr.head? = some (unlistable c)) :
    tr = [unlistable c] ∧ fs' = fs ∧ o = .ok () := by
  unfold CNIConfig.gcNetworkList at h
  split at h
  · obtain ⟨rfl, -, -⟩ := runs_done.1 h
    cases hf
  · rw [getCachedAttachments_eq] at h
    simp only [Prog.attempt, Prog.bind] at h
    obtain ⟨r, fs1, tr', hs, rfl, hr⟩ := runs_op.1 h
    have hr' : r = (.error false : Except Bool (List Bytes)) := by
      simp only [List.head?_cons, Option.some.injEq, unlistable] at hf
      injection hf
    subst hr'
    have hfs1 : fs1 = fs := step_readonly hs rfl
    subst hfs1
    obtain ⟨rfl, rfl, rfl⟩ := runs_done.1 hr
    exact ⟨rfl, rfl, rfl⟩

namespace Example

/-- There are stale attachments and plugins to ask, and GC succeeds without doing anything. -/
example : ∃ tr, Runs true (cfg.gcNetworkList list11 none) oneFile tr oneFile (.ok ()) ∧ tr.head? = some (unlistable cfg) :=
  ⟨[unlistable cfg], Runs.op (Step.readDirFails _ _ false rfl) (Runs.done _ _), rfl⟩

/-- The hypotheses of `c23_complete`. -/
example : (∃ tr fs' o, Runs false (cfg.gcNetworkList list11 none) oneFile tr fs' o ∧ (fs' key, o.toOption) = (none, some ())) ∧
    (∀ a, InCache cfg oneFile a → a.containerID ≠ []) ∧ ∃ a, InCache cfg oneFile a ∧ Stale list11.name none a := by
  refine ⟨Prog.afterDir_exists (find := find) (exec := good) (Example.lists _) (fun tr fs' o => (fs' key, o.toOption))
    (by decide +kernel) (fun _ _ _ _ => rfl), ?_, ?_⟩
  · rintro a ⟨n, hn, h⟩
    have hd : resultsDir cfg = b!"/cache/results" := by decide +kernel
    unfold attachmentIn oneFile at h
    rw [hd] at h
    by_cases he : childPath b!"/cache/results" n = key
    · rw [he, FS.set_same] at h
      have hc : (entryOf entry).map (fun a => a.containerID) = some b!"c1" := by decide +kernel
      rw [Option.bind_some] at h
      rw [h] at hc
      simp only [Option.map_some, Option.some.injEq] at hc
      rw [hc]; decide
    · rw [FS.set_other _ _ he] at h
      cases h
  · have hc : (attachmentIn cfg oneFile b!"net-c1-eth0").map (fun a => a.network) = some b!"net" := by decide +kernel
    cases ha : attachmentIn cfg oneFile b!"net-c1-eth0" with
    | none => rw [ha] at hc; cases hc
    | some a =>
      rw [ha] at hc
      refine ⟨a, ⟨_, by unfold IsComp; decide, ha⟩, ?_, fun l hl => by cases hl⟩
      simpa [list11, list] using hc

end Example

end Verif
